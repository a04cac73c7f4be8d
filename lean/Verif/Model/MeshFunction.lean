import Mathlib.Algebra.Star.Basic
import Mathlib.Algebra.Ring.Defs
import Mathlib.Algebra.BigOperators.Group.List.Basic
import Verif.Model.FeTools
import Verif.Model.Geometry

/-!
# Model of the mesh functions of `lf::mesh::utils` and of `MeshFunctionGradFE`

Several overloads of the operators see a `std::vector` of Eigen matrices of fixed size as one block of memory
(`Eigen::Map`).  Therefore a matrix or array is modelled with its entries in memory order.  Template arguments are
values of type `EigenTy`.  Failing static and dynamic assertions, taking the address of the first element of an empty
vector, access out of range and a mismatch of sizes are `none`.  Scalars are elements of a ring `R`.
-/

namespace Verif

/-! ## Eigen matrices and arrays -/

/-- Template arguments of `Eigen::Matrix` and `Eigen::Array`: the sizes (`none`: `Eigen::Dynamic`) and the storage
order (`O1 & Eigen::RowMajor`). -/
structure EigenTy where
  rows : Option ℕ
  cols : Option ℕ
  rowMajor : Bool
deriving DecidableEq

/-- The default storage order of Eigen for given sizes: row vectors are row-major, everything else is
column-major. -/
def defaultRowMajor (rows cols : ℕ) : Bool := decide (rows = 1) && !decide (cols = 1)

/-- An object of type `Eigen::Matrix` or `Eigen::Array` with its entries in memory order. -/
structure EigenVal (R : Type) where
  rows : ℕ
  cols : ℕ
  rowMajor : Bool
  data : List R
deriving DecidableEq

namespace EigenVal
variable {R : Type}

/-- Position in memory of entry `(i, j)`. -/
def offset (rows cols : ℕ) (rowMajor : Bool) (i j : ℕ) : ℕ :=
  if rowMajor then i * cols + j else j * rows + i

/-- Entry `(i, j)`; `none`: out of range. -/
def coeff (m : EigenVal R) (i j : ℕ) : Option R :=
  if i < m.rows ∧ j < m.cols then m.data[offset m.rows m.cols m.rowMajor i j]? else none

/-- A matrix given by its entries. -/
def build (rows cols : ℕ) (rowMajor : Bool) (f : ℕ → ℕ → Option R) : Option (EigenVal R) :=
  ((List.range (rows * cols)).mapM fun k =>
    if rowMajor then f (k / cols) (k % cols) else f (k % rows) (k / rows)).map fun data =>
  ⟨rows, cols, rowMajor, data⟩

/-- `n` matrices of size `rows` times `cols` from one block of memory. -/
def split (rows cols : ℕ) (rowMajor : Bool) : ℕ → List R → List (EigenVal R)
  | 0, _ => []
  | n + 1, l => ⟨rows, cols, rowMajor, l.take (rows * cols)⟩ :: split rows cols rowMajor n (l.drop (rows * cols))

end EigenVal

/-- `const Eigen::Map<...> um(&u[0](0, 0), 1, u.size() * R * C)`. -/
def mapMemory {R : Type} (u : List (EigenVal R)) : Option (List R) :=
  if u.length = 0 then none else some (u.flatMap fun m => m.data)

/-! ## Binary operators -/

section
variable {R : Type}

/-- The overloads for two scalar types of `OperatorAddition`, `OperatorSubtraction` and `OperatorMultiplication`;
/repo/lib/lf/mesh/utils/mesh_function_binary.h:105-118, 273-286, 450-462. -/
def opScalar (f : R → R → R) (u v : List R) : Option (List R) :=
  if u.length = v.length then some (List.zipWith f u v) else none

/-- The overloads for two matrices of `OperatorAddition` and `OperatorSubtraction`, and for two arrays of all three;
/repo/lib/lf/mesh/utils/mesh_function_binary.h:123-176, 181-234, 291-348, 353-410, 500-557.  `t1`, `t2` are the types
of the two arguments. -/
def opEntries (f : R → R → R) (t1 t2 : EigenTy) (u v : List (EigenVal R)) : Option (List (EigenVal R)) :=
  match t1.rows, t1.cols, t2.rows, t2.cols with
  | some r1, some c1, some r2, some c2 =>
    if r1 = r2 ∧ c1 = c2 then
      (mapMemory u).bind fun um => (mapMemory v).bind fun vm =>
      (opScalar f um vm).map fun rm => EigenVal.split r1 c1 (defaultRowMajor r1 c1) u.length rm
    else none
  | _, _, _, _ =>
    (List.range u.length).mapM fun i => (u[i]?).bind fun a => (v[i]?).bind fun b =>
      if a.rows = b.rows ∧ a.cols = b.cols then
        EigenVal.build a.rows a.cols false fun r c => (a.coeff r c).bind fun x => (b.coeff r c).map fun y => f x y
      else none

/-- The overloads of `OperatorAddition` and `OperatorSubtraction` for arbitrary types;
/repo/lib/lf/mesh/utils/mesh_function_binary.h:239-247, 415-424. -/
def opGeneric {U V W : Type} (f : U → V → W) (u : List U) (v : List V) : Option (List W) :=
  (List.range u.length).mapM fun i => (u[i]?).bind fun a => (v[i]?).map fun b => f a b

/-- The overload of `OperatorMultiplication` for arbitrary types;
/repo/lib/lf/mesh/utils/mesh_function_binary.h:626-635.  The loop runs up to the size of the result, which is still
empty. -/
def mulGeneric {U V W : Type} (f : U → V → W) (u : List U) (v : List V) : Option (List W) :=
  let result : List W := []
  (List.range result.length).foldlM (fun (result : List W) i =>
    (u[i]?).bind fun a => (v[i]?).map fun b => result ++ [f a b]) result

variable [Ring R]

/-- The overload of `OperatorMultiplication` for two matrices;
/repo/lib/lf/mesh/utils/mesh_function_binary.h:465-495.  The branches differ in the type of the result only. -/
def mulMatrix (u v : List (EigenVal R)) : Option (List (EigenVal R)) :=
  (List.range u.length).mapM fun i => (u[i]?).bind fun a => (v[i]?).bind fun b =>
    if a.cols = b.rows then
      EigenVal.build a.rows b.cols false fun r c =>
        ((List.range a.cols).mapM fun k => (a.coeff r k).bind fun x => (b.coeff k c).map fun y => x * y).map List.sum
    else none

/-- The overloads of `OperatorMultiplication` for a scalar and a matrix or array;
/repo/lib/lf/mesh/utils/mesh_function_binary.h:560-583, 593-616.  `t` is the type of the matrix.  The versions with
exchanged arguments (586-590, 619-623) call these. -/
def mulScalarMatrix (t : EigenTy) (u : List R) (v : List (EigenVal R)) : Option (List (EigenVal R)) :=
  match t.rows, t.cols with
  | some r, some c =>
    (mapMemory v).bind fun vm =>
    if u.length = v.length then
      (opScalar (fun x y => x * y) vm (u.flatMap fun s => List.replicate (r * c) s)).map fun rm =>
        EigenVal.split r c (defaultRowMajor r c) u.length rm
    else none
  | _, _ =>
    (List.range u.length).mapM fun i => (u[i]?).bind fun s => (v[i]?).bind fun b =>
      EigenVal.build b.rows b.cols false fun r c => (b.coeff r c).map fun y => s * y

/-! ## Unary operators -/

/-- `UnaryOpMinus` for scalars and for arbitrary types; /repo/lib/lf/mesh/utils/mesh_function_unary.h:55-64,
121-128. -/
def minusScalar (u : List R) : Option (List R) := some (u.map fun x => -x)

/-- `UnaryOpMinus` for matrices and arrays; /repo/lib/lf/mesh/utils/mesh_function_unary.h:67-91, 94-118.  The type of
the result is the type `t` of the argument. -/
def minusEntries (t : EigenTy) (u : List (EigenVal R)) : Option (List (EigenVal R)) :=
  if t.rows = some 0 ∨ t.cols = some 0 then some u else
  match t.rows, t.cols with
  | some r, some c => (mapMemory u).map fun um => EigenVal.split r c t.rowMajor u.length (um.map fun x => -x)
  | _, _ => some (u.map fun m => { m with data := m.data.map fun x => -x })

/-- `UnaryOpSquaredNorm` for scalars; /repo/lib/lf/mesh/utils/mesh_function_unary.h:133-142.  `double` only. -/
def squaredNormScalar (u : List R) : Option (List R) := some (u.map fun x => x * x)

/-- `UnaryOpSquaredNorm` for matrices; /repo/lib/lf/mesh/utils/mesh_function_unary.h:145-173.  `result` is
initialised with zeros; for matrices of fixed size with several rows and columns nothing else is done. -/
def squaredNormMatrix (t : EigenTy) (u : List (EigenVal R)) : Option (List R) :=
  match t.rows, t.cols with
  | some r, some c =>
    if 0 < r ∧ 0 < c then
      if c = 1 then
        (mapMemory u).bind fun um => (List.range u.length).mapM fun i =>
          ((List.range r).mapM fun k => (um[i * r + k]?).map fun x => x * x).map List.sum
      else if r = 1 then
        (mapMemory u).bind fun um => (List.range u.length).mapM fun i =>
          ((List.range c).mapM fun k => (um[i * c + k]?).map fun x => x * x).map List.sum
      else some (List.replicate u.length 0)
    else none
  | _, _ => some (u.map fun m => (m.data.map fun x => x * x).sum)

/-- `UnaryOpTranspose`; /repo/lib/lf/mesh/utils/mesh_function_unary.h:178-197. -/
def opTranspose (u : List (EigenVal R)) : Option (List (EigenVal R)) :=
  u.mapM fun m => EigenVal.build m.cols m.rows false fun i j => m.coeff j i

variable [StarRing R]

/-- `UnaryOpAdjoint`; /repo/lib/lf/mesh/utils/mesh_function_unary.h:202-210. -/
def opAdjoint (u : List (EigenVal R)) : Option (List (EigenVal R)) :=
  u.mapM fun m => EigenVal.build m.cols m.rows false fun i j => (m.coeff j i).map star

/-- `UnaryOpConjugate` for scalars; /repo/lib/lf/mesh/utils/mesh_function_unary.h:215-224. -/
def conjugateScalar (u : List R) : Option (List R) := some (u.map star)

/-- `UnaryOpConjugate` for matrices and arrays; /repo/lib/lf/mesh/utils/mesh_function_unary.h:227-246. -/
def opConjugate (u : List (EigenVal R)) : Option (List (EigenVal R)) :=
  u.mapM fun m => EigenVal.build m.rows m.cols false fun i j => (m.coeff i j).map star

end

/-! ## The mesh functions -/

section
variable {K U V W : Type}

/-- `MeshFunctionUnary::operator()`; /repo/lib/lf/mesh/utils/mesh_function_unary.h:43-45. -/
def MeshFn.unary (op : List U → Option (List W)) (a : MeshFn K U) : MeshFn K W :=
  fun e pts => (a e pts).bind op

/-- `MeshFunctionBinary::operator()`; /repo/lib/lf/mesh/utils/mesh_function_binary.h:65-68. -/
def MeshFn.binary (op : List U → List V → Option (List W)) (a : MeshFn K U) (b : MeshFn K V) : MeshFn K W :=
  fun e pts => (a e pts).bind fun u => (b e pts).bind fun v => op u v

/-- `MeshFunctionConstant`; /repo/lib/lf/mesh/utils/mesh_function_constant.h:35-38. -/
def MeshFn.const (value : V) : MeshFn K V := fun _ pts => some (List.replicate pts.length value)

/-- `MeshFunctionGlobal`; /repo/lib/lf/mesh/utils/mesh_function_global.h:72-84. -/
def MeshFn.global [Field K] [LinearOrder K] {w : ℕ} (T : Topo) (geo : Ent → Option (Geo K w)) (f : Vec K w → V) :
    MeshFn K V := fun e pts =>
  (T.refEl e).bind fun ref =>
  if pts.all fun x => decide (x.length = ref.dimension) then
    (geo e).bind fun g => (pts.mapM g.global).map fun l => l.map f
  else none

end

/-! ## Gradients -/

section
variable {K : Type} [Field K] [LinearOrder K] {w : ℕ}

/-- `MeshFunctionGradFE::operator()` at one point; /repo/lib/lf/fe/mesh_function_grad_fe.h:91-118.  `geo e` is
`e.Geometry()`.  Shape functions of a point have no gradients. -/
def FeSpace.gradFE (S : FeSpace K) (geo : Ent → Option (Geo K w)) (dofs : List K) (e : Ent) (x : List K) :
    Option (Vec K w) :=
  (S.layout e).bind fun fe => (fe.grad x).bind fun sf =>
  (S.localDofs dofs e sf.length).bind fun loc =>
  (S.mesh.refEl e).bind fun ref =>
  ((List.range ref.dimension).mapM fun k => (sf.mapM fun row => row[k]?).map fun col => dotRow loc col).bind fun grad =>
  (geo e).bind fun g => (g.jacobianInverseGramian x).bind fun J =>
  if J.length = ref.dimension then some (List.zipWith (fun t c => t • c) grad J).sum else none

end
end Verif
