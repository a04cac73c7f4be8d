import Mathlib.Algebra.Field.Defs
import Verif.Model.DofHandler

/-!
# Model of scalar finite elements: `ScalarReferenceFiniteElement`, the Lagrangian elements,
`UniformScalarFESpace`, `MeshFunctionFE`

The C++ methods take a matrix whose columns are evaluation points and treat the columns independently;
here they take one point, the list of its coordinates.  `double` is an arbitrary field.  Failing checks,
null pointers that are dereferenced and out-of-range accesses are modelled by `none`.
-/

namespace Verif

/-- `lf::fe::ScalarReferenceFiniteElement`; /repo/lib/lf/fe/scalar_reference_finite_element.h:80-317.
`num` is `NumRefShapeFunctions()`, `numCodim` the version with one and `numSub` the version with two
arguments; `eval` gives one column of `EvalReferenceShapeFunctions`, `grad` for each shape function the
row vector of its derivatives. -/
structure RefFE (K : Type) where
  ref : RefEl
  degree : ℕ
  num : ℕ
  numCodim : ℕ → Option ℕ
  numSub : ℕ → ℕ → Option ℕ
  eval : List K → Option (List K)
  grad : List K → Option (List (List K))
  nodes : List (List K)
  toDofs : List K → Option (List K)

/-- The default `NodalValuesToDofs`; /repo/lib/lf/fe/scalar_reference_finite_element.h:310-316. -/
def RefFE.nodalValuesToDofs {K : Type} (numEvaluationNodes : ℕ) (nodvals : List K) : Option (List K) :=
  if nodvals.length = numEvaluationNodes then some nodvals else none

/-- `NumEvaluationNodes()`, the number of columns of `EvaluationNodes()`. -/
def RefFE.numNodes {K : Type} (fe : RefFE K) : ℕ := fe.nodes.length

section
variable {K : Type} [Field K]

/-- The bounds checks on sub-entities most elements do, for a reference element. -/
def subInRange (ref : RefEl) (codim subidx : ℕ) : Bool :=
  match ref.numSubEntities codim with
  | some n => decide (subidx < n)
  | none => false

/-- `FePoint`; /repo/lib/lf/fe/fe_point.h:20-61. -/
def fePoint (degree : ℕ) : RefFE K where
  ref := .point
  degree := degree
  num := 1
  numCodim _ := none
  numSub codim subidx := if codim = 0 ∧ subidx = 0 then some 1 else none
  eval x := if x.length = 0 then some [1] else none
  grad _ := none
  nodes := [[]]
  toDofs := RefFE.nodalValuesToDofs 1

/-- `FeLagrangeO1Tria`; /repo/lib/lf/uscalfe/lagr_fe.h:56-145. -/
def lagrO1Tria : RefFE K where
  ref := .tria
  degree := 1
  num := 3
  numCodim codim := if codim ≤ 2 then some (if codim = 2 then 1 else 0) else none
  numSub codim subidx := if codim ≤ 2 ∧ subInRange .tria codim subidx then
    some (if codim = 2 then 1 else 0) else none
  eval
    | [x0, x1] => some [1 - x0 - x1, x0, x1]
    | _ => none
  grad
    | [_, _] => some [[-1, -1], [1, 0], [0, 1]]
    | _ => none
  nodes := [[0, 0], [1, 0], [0, 1]]
  toDofs := RefFE.nodalValuesToDofs 3

/-- `FeLagrangeO1Quad`; /repo/lib/lf/uscalfe/lagr_fe.h:165-263. -/
def lagrO1Quad : RefFE K where
  ref := .quad
  degree := 1
  num := 4
  numCodim codim := some (if codim = 2 then 1 else 0)
  numSub codim subidx := if subInRange .quad codim subidx then
    some (if codim = 2 then 1 else 0) else none
  eval
    | [x0, x1] => some [(1 - x0) * (1 - x1), x0 * (1 - x1), x0 * x1, (1 - x0) * x1]
    | _ => none
  grad
    | [x0, x1] => some [[x1 - 1, x0 - 1], [1 - x1, -x0], [x1, x0], [-x1, 1 - x0]]
    | _ => none
  nodes := [[0, 0], [1, 0], [1, 1], [0, 1]]
  toDofs := RefFE.nodalValuesToDofs 4

/-- `FeLagrangeO1Segment`; /repo/lib/lf/uscalfe/lagr_fe.h:284-370. -/
def lagrO1Segment : RefFE K where
  ref := .segment
  degree := 1
  num := 2
  numCodim codim := if codim ≤ 1 then some (if codim = 1 then 1 else 0) else none
  numSub codim subidx := if codim ≤ 1 ∧ subInRange .segment codim subidx then
    some (if codim = 1 then 1 else 0) else none
  eval
    | [x] => some [1 - x, x]
    | _ => none
  grad
    | [_] => some [[-1], [1]]
    | _ => none
  nodes := [[0], [1]]
  toDofs := RefFE.nodalValuesToDofs 2

/-- `FeLagrangeO2Tria`; /repo/lib/lf/uscalfe/lagr_fe.h:400-546. -/
def lagrO2Tria : RefFE K where
  ref := .tria
  degree := 2
  num := 6
  numCodim codim := if codim ≤ 2 then some (if codim = 0 then 0 else 1) else none
  numSub codim _ := if codim ≤ 2 then some (if codim = 0 then 0 else 1) else none
  eval
    | [x0, x1] => some [2 * (1 - x0 - x1) * (1 / 2 - x0 - x1), 2 * x0 * (x0 - 1 / 2),
        2 * x1 * (x1 - 1 / 2), 4 * (1 - x0 - x1) * x0, 4 * x0 * x1, 4 * (1 - x0 - x1) * x1]
    | _ => none
  grad
    | [x0, x1] => some [[-3 + 4 * x0 + 4 * x1, -3 + 4 * x0 + 4 * x1], [4 * x0 - 1, 0],
        [0, 4 * x1 - 1], [4 - 0 - 8 * x0 - 4 * x1, -4 * x0], [4 * x1, 4 * x0],
        [-4 * x1, 4 - 8 * x1 - 4 * x0]]
    | _ => none
  nodes := [[0, 0], [1, 0], [0, 1], [1 / 2, 0], [1 / 2, 1 / 2], [0, 1 / 2]]
  toDofs := RefFE.nodalValuesToDofs 6

/-- `FeLagrangeO2Segment`; /repo/lib/lf/uscalfe/lagr_fe.h:563-686. -/
def lagrO2Segment : RefFE K where
  ref := .segment
  degree := 2
  num := 3
  numCodim codim := if codim ≤ 1 then some 1 else none
  numSub codim _ := if codim ≤ 1 then some 1 else none
  eval
    | [x] => some [2 * (1 - x) * (1 / 2 - x), 2 * x * (x - 1 / 2), 4 * (1 - x) * x]
    | _ => none
  grad
    | [x] => some [[4 * x - 3], [4 * x - 1], [4 - 8 * x]]
    | _ => none
  nodes := [[0], [1], [1 / 2]]
  toDofs := RefFE.nodalValuesToDofs 3

/-- Products of "segment" shape functions; the loops
/repo/lib/lf/uscalfe/lagr_fe.h:794-798 and 1347-1351. -/
def tensorEval (mapping : List (ℕ × ℕ)) (s0 s1 : List K) : Option (List K) :=
  mapping.mapM fun m => (s0[m.1]?).bind fun a => (s1[m.2]?).map fun b => a * b

/-- Product rule for products of "segment" shape functions; the loops
/repo/lib/lf/uscalfe/lagr_fe.h:842-851 and 1386-1395. -/
def tensorGrad (mapping : List (ℕ × ℕ)) (s0 s1 : List K) (g0 g1 : List (List K)) :
    Option (List (List K)) :=
  mapping.mapM fun m =>
    (s0[m.1]?).bind fun a => (s1[m.2]?).bind fun b =>
    (g0[m.1]?).bind fun da => (g1[m.2]?).bind fun db =>
    (da[0]?).bind fun da => (db[0]?).map fun db => [da * b, db * a]

/-- Evaluation of a tensor product element; /repo/lib/lf/uscalfe/lagr_fe.h:779-800, 1331-1353. -/
def tensorFEEval (seg : RefFE K) (mapping : List (ℕ × ℕ)) : List K → Option (List K)
  | [x0, x1] => (seg.eval [x0]).bind fun s0 => (seg.eval [x1]).bind fun s1 => tensorEval mapping s0 s1
  | _ => none

/-- Gradients of a tensor product element; /repo/lib/lf/uscalfe/lagr_fe.h:811-853, 1355-1398. -/
def tensorFEGrad (seg : RefFE K) (mapping : List (ℕ × ℕ)) : List K → Option (List (List K))
  | [x0, x1] =>
    (seg.eval [x0]).bind fun s0 => (seg.eval [x1]).bind fun s1 =>
    (seg.grad [x0]).bind fun g0 => (seg.grad [x1]).bind fun g1 => tensorGrad mapping s0 s1 g0 g1
  | _ => none

/-- `ksegment_to_quad_mapping_` of order 2; /repo/lib/lf/uscalfe/lagr_fe.h:916-924. -/
def o2Mapping : List (ℕ × ℕ) :=
  [(0, 0), (1, 0), (1, 1), (0, 1), (2, 0), (1, 2), (2, 1), (0, 2), (2, 2)]

/-- `FeLagrangeO2Quad`; /repo/lib/lf/uscalfe/lagr_fe.h:713-906. -/
def lagrO2Quad : RefFE K where
  ref := .quad
  degree := 2
  num := 9
  numCodim codim := if codim ≤ 2 then some 1 else none
  numSub codim _ := if codim ≤ 2 then some 1 else none
  eval := tensorFEEval lagrO2Segment o2Mapping
  grad := tensorFEGrad lagrO2Segment o2Mapping
  nodes := [[0, 0], [1, 0], [1, 1], [0, 1], [1 / 2, 0], [1, 1 / 2], [1 / 2, 1], [0, 1 / 2],
    [1 / 2, 1 / 2]]
  toDofs := RefFE.nodalValuesToDofs 9

/-- `FeLagrangeO3Tria`; /repo/lib/lf/uscalfe/lagr_fe.h:945-1140. -/
def lagrO3Tria : RefFE K where
  ref := .tria
  degree := 3
  num := 10
  numCodim codim := if codim ≤ 2 then some (if codim = 1 then 2 else 1) else none
  numSub codim subidx := if codim ≤ 2 ∧ subInRange .tria codim subidx then
    some (if codim = 1 then 2 else 1) else none
  eval
    | [x0, x1] =>
      let l0 := 1 - x0 - x1
      let l1 := x0
      let l2 := x1
      some [9 / 2 * l0 * (l0 - 1 / 3) * (l0 - 2 / 3), 9 / 2 * l1 * (l1 - 1 / 3) * (l1 - 2 / 3),
        9 / 2 * l2 * (l2 - 1 / 3) * (l2 - 2 / 3),
        27 / 2 * l0 * l1 * (l0 - 1 / 3), 27 / 2 * l0 * l1 * (l1 - 1 / 3),
        27 / 2 * l1 * l2 * (l1 - 1 / 3), 27 / 2 * l1 * l2 * (l2 - 1 / 3),
        27 / 2 * l2 * l0 * (l2 - 1 / 3), 27 / 2 * l2 * l0 * (l0 - 1 / 3),
        27 * l0 * l1 * l2]
    | _ => none
  grad
    | [x0, x1] =>
      let l0 := 1 - x0 - x1
      let l1 := x0
      let l2 := x1
      some [
        [-9 / 2 * ((l0 - 1 / 3) * (l0 - 2 / 3) + l0 * (l0 - 2 / 3) + l0 * (l0 - 1 / 3)),
          -9 / 2 * ((l0 - 1 / 3) * (l0 - 2 / 3) + l0 * (l0 - 2 / 3) + l0 * (l0 - 1 / 3))],
        [9 / 2 * ((l1 - 1 / 3) * (l1 - 2 / 3) + l1 * (l1 - 2 / 3) + l1 * (l1 - 1 / 3)), 0],
        [0, 9 / 2 * ((l2 - 1 / 3) * (l2 - 2 / 3) + l2 * (l2 - 2 / 3) + l2 * (l2 - 1 / 3))],
        [27 / 2 * (-l1 * (l0 - 1 / 3) + l0 * (l0 - 1 / 3) - l0 * l1),
          -27 / 2 * (l1 * (l0 - 1 / 3) + l0 * l1)],
        [27 / 2 * (-l1 * (l1 - 1 / 3) + l0 * (l1 - 1 / 3) + l0 * l1),
          -27 / 2 * l1 * (l1 - 1 / 3)],
        [27 / 2 * (l2 * (l1 - 1 / 3) + l1 * l2), 27 / 2 * (l1 * (l1 - 1 / 3))],
        [27 / 2 * (l2 * (l2 - 1 / 3)), 27 / 2 * (l1 * (l2 - 1 / 3) + l1 * l2)],
        [-27 / 2 * l2 * (l2 - 1 / 3),
          27 / 2 * (l0 * (l2 - 1 / 3) - l2 * (l2 - 1 / 3) + l0 * l2)],
        [-27 / 2 * (l2 * (l0 - 1 / 3) + l2 * l0),
          27 / 2 * (l0 * (l0 - 1 / 3) - l2 * (l0 - 1 / 3) - l2 * l0)],
        [27 * (-l1 * l2 + l0 * l2), 27 * (-l1 * l2 + l0 * l1)]]
    | _ => none
  nodes := [[0, 0], [1, 0], [0, 1]] ++
    ([[1, 0], [2, 0], [2, 1], [1, 2], [0, 2], [0, 1]] : List (List K)).map (·.map (· * (1 / 3))) ++
    [[1 / 3, 1 / 3]]
  toDofs := RefFE.nodalValuesToDofs 10

/-- `FeLagrangeO3Segment`; /repo/lib/lf/uscalfe/lagr_fe.h:1155-1252. -/
def lagrO3Segment : RefFE K where
  ref := .segment
  degree := 3
  num := 4
  numCodim codim := if codim ≤ 1 then some (if codim = 0 then 2 else 1) else none
  numSub codim subidx := if codim ≤ 1 ∧ subInRange .segment codim subidx then
    some (if codim = 0 then 2 else 1) else none
  eval
    | [x] => some [9 / 2 * (1 - x) * (1 / 3 - x) * (2 / 3 - x), 9 / 2 * x * (x - 1 / 3) * (x - 2 / 3),
        27 / 2 * x * (1 - x) * (2 / 3 - x), 27 / 2 * x * (1 - x) * (x - 1 / 3)]
    | _ => none
  grad
    | [x] => some [[-27 / 2 * x * x + 18 * x - 11 / 2], [27 / 2 * x * x - 9 * x + 1],
        [81 / 2 * x * x - 45 * x + 9], [-81 / 2 * x * x + 36 * x - 9 / 2]]
    | _ => none
  nodes := [[0], [1], [1 / 3], [2 / 3]]
  toDofs := RefFE.nodalValuesToDofs 4

/-- `ksegment_to_quad_mapping_` of order 3; /repo/lib/lf/uscalfe/lagr_fe.h:1464-1479. -/
def o3Mapping : List (ℕ × ℕ) :=
  [(0, 0), (1, 0), (1, 1), (0, 1), (2, 0), (3, 0), (1, 2), (1, 3), (3, 1), (2, 1), (0, 3), (0, 2),
    (2, 2), (3, 2), (3, 3), (2, 3)]

/-- `FeLagrangeO3Quad`; /repo/lib/lf/uscalfe/lagr_fe.h:1279-1454. -/
def lagrO3Quad : RefFE K where
  ref := .quad
  degree := 3
  num := 16
  numCodim codim := match codim with | 0 => some 4 | 1 => some 2 | 2 => some 1 | _ => none
  numSub codim subidx := if subInRange .quad codim subidx then
    (match codim with | 0 => some 4 | 1 => some 2 | 2 => some 1 | _ => none) else none
  eval := tensorFEEval lagrO3Segment o3Mapping
  grad := tensorFEGrad lagrO3Segment o3Mapping
  nodes := [[0, 0], [1, 0], [1, 1], [0, 1]] ++
    ([[1, 0], [2, 0], [3, 1], [3, 2], [2, 3], [1, 3], [0, 2], [0, 1]] : List (List K)).map
      (·.map (· * (1 / 3))) ++
    ([[1, 1], [2, 1], [2, 2], [1, 2]] : List (List K)).map (·.map (· * (1 / 3)))
  toDofs := RefFE.nodalValuesToDofs 16

/-! ## `UniformScalarFESpace` -/

/-- The data members of `UniformScalarFESpace`; `none`: null pointer;
/repo/lib/lf/uscalfe/uniform_scalar_fe_space.h:150-168. -/
structure UniformFESpace (K : Type) where
  tria : Option (RefFE K)
  quad : Option (RefFE K)
  edge : Option (RefFE K)
  point : Option (RefFE K)
  numNode : ℕ
  numEdge : ℕ
  numTria : ℕ
  numQuad : ℕ
  dofh : DofHandler

namespace UniformFESpace

/-- A check that is only done if both pointers are set: the two numbers of shape functions agree. -/
def agree (a b : Option (RefFE K)) (ca cb : ℕ) : Bool :=
  match a, b with
  | some f, some g => (f.numCodim ca).isSome && (f.numCodim ca == g.numCodim cb)
  | _, _ => true

/-- A specification that is given has the right reference element and at most one shape function per
node. -/
def probe (fe : Option (RefFE K)) (ref : RefEl) (nodeCodim : ℕ) : Bool :=
  match fe with
  | none => true
  | some f => decide (f.ref = ref) && (f.numCodim nodeCodim).any (· ≤ 1)

/-- The last of the given specifications decides on the number of shape functions, see the sequence of
assignments /repo/lib/lf/uscalfe/uniform_scalar_fe_space.h:261-290. -/
def pick (l : List (Option (RefFE K) × ℕ)) : ℕ :=
  l.foldl (fun acc p => match p.1 with
    | none => acc
    | some f => (f.numCodim p.2).getD 0) 0

/-- Constructor and `InitDofHandler`; /repo/lib/lf/uscalfe/uniform_scalar_fe_space.h:82-97 and 241-342.
Simplifications: the mesh is two-dimensional and given by its topology, and `mesh_p` is not null;
the checks are done together instead of one after the other. -/
def make (T : Topo) (tria quad edge point : Option (RefFE K)) : Option (UniformFESpace K) :=
  let hasTria := (List.range T.numCells).any fun c => T.refEl (0, c) = some .tria
  let hasQuad := (List.range T.numCells).any fun c => T.refEl (0, c) = some .quad
  if (quad.isSome || tria.isSome) && (!hasTria || tria.isSome) && (!hasQuad || quad.isSome) &&
      probe tria .tria 2 && probe quad .quad 2 && probe edge .segment 1 &&
      agree tria quad 2 2 && agree tria quad 1 1 && agree tria edge 2 1 && agree tria edge 1 0 &&
      agree quad edge 2 1 && agree quad edge 1 0 then
    let numNode := pick [(tria, 2), (quad, 2), (edge, 1)]
    let numEdge := pick [(tria, 1), (quad, 1), (edge, 0)]
    let numTria := pick [(tria, 0)]
    let numQuad := pick [(quad, 0)]
    (uniformDofHandler T ⟨numNode, numEdge, numTria, numQuad⟩ true).map fun h =>
      { tria := tria, quad := quad, edge := edge, point := point, numNode := numNode,
        numEdge := numEdge, numTria := numTria, numQuad := numQuad, dofh := h }
  else none

/-- `ShapeFunctionLayout(ref_el)`; /repo/lib/lf/uscalfe/uniform_scalar_fe_space.h:351-383.  `none`: null
pointer. -/
def layout (S : UniformFESpace K) : RefEl → Option (RefFE K)
  | .point => S.point
  | .segment => S.edge
  | .tria => S.tria
  | .quad => S.quad

/-- `NumRefShapeFunctions(ref_el)`, with its check as it is in the code (it looks at `rfs_quad_p_`
twice); /repo/lib/lf/uscalfe/uniform_scalar_fe_space.h:393-417. -/
def numRefShapeFunctions (S : UniformFESpace K) (ref : RefEl) : Option ℕ :=
  if S.quad.isSome && S.quad.isSome then
    some (match ref with
      | .point => S.numNode | .segment => S.numEdge | .tria => S.numTria | .quad => S.numQuad)
  else none

end UniformFESpace

/-! ## The interface `ScalarFESpace` and `MeshFunctionFE` -/

/-- `ScalarFESpace`: mesh, dof handler and the shape functions on each entity (`none`: null pointer);
/repo/lib/lf/fe/scalar_fe_space.h:58-116. -/
structure FeSpace (K : Type) where
  mesh : Topo
  dofh : DofHandler
  layout : Ent → Option (RefFE K)

/-- `UniformScalarFESpace` as a `ScalarFESpace`;
/repo/lib/lf/uscalfe/uniform_scalar_fe_space.h:102-112 and 344-349. -/
def UniformFESpace.space (S : UniformFESpace K) (T : Topo) : FeSpace K where
  mesh := T
  dofh := S.dofh
  layout e := (T.refEl e).bind S.layout

/-- `FeSpaceLagrangeO1`, `FeSpaceLagrangeO2`, `FeSpaceLagrangeO3`;
/repo/lib/lf/uscalfe/fe_space_lagrange_o1.h:45-51, fe_space_lagrange_o2.h:45-51,
fe_space_lagrange_o3.h:42-48. -/
def lagrangeSpace (T : Topo) : ℕ → Option (UniformFESpace K)
  | 1 => UniformFESpace.make T (some lagrO1Tria) (some lagrO1Quad) (some lagrO1Segment) (some (fePoint 1))
  | 2 => UniformFESpace.make T (some lagrO2Tria) (some lagrO2Quad) (some lagrO2Segment) (some (fePoint 2))
  | 3 => UniformFESpace.make T (some lagrO3Tria) (some lagrO3Quad) (some lagrO3Segment) (some (fePoint 3))
  | _ => none

/-- `local_dofs * sf_eval` for one column. -/
def dotRow (a b : List K) : K := (List.zipWith (fun x y => x * y) a b).sum

namespace FeSpace

/-- Collecting the local coefficients; /repo/lib/lf/fe/mesh_function_fe.h:79-84. -/
def localDofs (S : FeSpace K) (dofs : List K) (e : Ent) (n : ℕ) : Option (List K) :=
  (S.dofh.globalDofIndices e).bind fun gd =>
    (List.range n).mapM fun i => (gd[i]?).bind fun g => dofs[g]?

/-- `MeshFunctionFE::operator()` at one point; /repo/lib/lf/fe/mesh_function_fe.h:72-91. -/
def evalFE (S : FeSpace K) (dofs : List K) (e : Ent) (x : List K) : Option K :=
  (S.layout e).bind fun fe => (fe.eval x).bind fun sf =>
    (S.localDofs dofs e sf.length).map fun loc => dotRow loc sf

end FeSpace
end

end Verif
