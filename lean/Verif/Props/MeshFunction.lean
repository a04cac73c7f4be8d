import Verif.Lemmas.MeshFunction
import Mathlib.Data.Matrix.Basic
import Mathlib.LinearAlgebra.Matrix.Notation
import Mathlib.LinearAlgebra.Matrix.ConjTranspose
import Mathlib.Data.Rat.Star

/-!
# C72: arithmetic of mesh functions is pointwise

`Values n u A` says that the list `u` returned by a mesh function consists of `n` Eigen objects which are the
matrices `A 0`, `A 1`, ...
-/

namespace Verif
variable {R K : Type} {n : ℕ} {r c : ℕ → ℕ}

/-- The operators of `MeshFunctionUnary` and `MeshFunctionBinary` are applied to the values at the same points of the
same entity. -/
theorem C72_unary {U W : Type} (op : List U → Option (List W)) (a : MeshFn K U) (e : Ent) (pts : List (List K))
    (u : List U) (ha : a e pts = some u) : MeshFn.unary op a e pts = op u := by
  rw [MeshFn.unary, ha]; rfl

theorem C72_binary {U V W : Type} (op : List U → List V → Option (List W)) (a : MeshFn K U) (b : MeshFn K V) (e : Ent)
    (pts : List (List K)) (u : List U) (v : List V) (ha : a e pts = some u) (hb : b e pts = some v) :
    MeshFn.binary op a b e pts = op u v := by
  rw [MeshFn.binary, ha, hb]; rfl

/-- **C72**, sums, differences and entrywise products of matrix or array valued mesh functions (`f` is the operation on
entries), if fixed size types have the default storage order, and if there is at least one point for them. -/
theorem C72_entries_partial (f : R → R → R) (t1 t2 : EigenTy) (u v : List (EigenVal R))
    (A B : ∀ i, Matrix (Fin (r i)) (Fin (c i)) R) (hu : Values n u A) (hv : Values n v B) (h1 : t1.All u)
    (h2 : t2.All v) (s1 : t1.Standard) (s2 : t2.Standard) (hn : t1.Fixed → t2.Fixed → 0 < n) :
    ∃ w, opEntries f t1 t2 u v = some w ∧ Values n w fun i => Matrix.of fun p q => f (A i p q) (B i p q) := by
  have gen : ∃ w, ((List.range u.length).mapM fun i => (u[i]?).bind fun a => (v[i]?).bind fun b =>
      if a.rows = b.rows ∧ a.cols = b.cols then
        EigenVal.build a.rows a.cols false fun r c => (a.coeff r c).bind fun x => (b.coeff r c).map fun y => f x y
      else none) = some w ∧ Values n w fun i => Matrix.of fun p q => f (A i p q) (B i p q) := by
    obtain ⟨w, w1, w2, w3⟩ := mapM_range_some n (fun i => (u[i]?).bind fun a => (v[i]?).bind fun b =>
      if a.rows = b.rows ∧ a.cols = b.cols then
        EigenVal.build a.rows a.cols false fun r c => (a.coeff r c).bind fun x => (b.coeff r c).map fun y => f x y
      else none) (fun i m => m.Is (Matrix.of fun p q => f (A i p q) (B i p q))) (by
        intro i hi
        obtain ⟨a, ha, a1, a2, a3, a4⟩ := hu.2 i hi
        obtain ⟨b, hb, b1, b2, b3, b4⟩ := hv.2 i hi
        rw [ha, hb, Option.bind_some, Option.bind_some, a1, a2, if_pos ⟨b1.symm, b2.symm⟩]
        exact EigenVal.build_spec _ _ _ fun p q => by rw [a4, b4]; rfl)
    exact ⟨w, by rw [hu.1]; exact w1, w2, w3⟩
  unfold opEntries
  rcases e1 : t1.rows with _ | r1
  · exact gen
  rcases e2 : t1.cols with _ | c1
  · exact gen
  rcases e3 : t2.rows with _ | r2
  · exact gen
  rcases e4 : t2.cols with _ | c2
  · exact gen
  have hpos : 0 < n := hn ⟨by simp [e1], by simp [e2]⟩ ⟨by simp [e3], by simp [e4]⟩
  have sizes : ∀ i < n, r i = r1 ∧ c i = c1 ∧ r i = r2 ∧ c i = c2 := by
    intro i hi
    obtain ⟨a, ha, a1, a2, -⟩ := hu.2 i hi
    obtain ⟨b, hb, b1, b2, -⟩ := hv.2 i hi
    obtain ⟨x1, x2, -⟩ := h1 a (List.mem_of_getElem? ha)
    obtain ⟨y1, y2, -⟩ := h2 b (List.mem_of_getElem? hb)
    exact ⟨by rw [← a1, x1 _ e1], by rw [← a2, x2 _ e2], by rw [← b1, y1 _ e3], by rw [← b2, y2 _ e4]⟩
  obtain ⟨z1, z2, z3, z4⟩ := sizes 0 hpos
  obtain rfl : r2 = r1 := z3.symm.trans z1
  obtain rfl : c2 = c1 := z4.symm.trans z2
  have lu : ∀ l ∈ u.map fun m => m.data, l.length = r2 * c2 := by
    intro l hl
    obtain ⟨m, hm, rfl⟩ := List.mem_map.1 hl
    obtain ⟨i, hi, rfl⟩ := List.getElem_of_mem hm
    obtain ⟨a, ha, a1, a2, a3, a4⟩ := hu.2 i (by rw [← hu.1]; exact hi)
    rw [List.getElem?_eq_getElem hi] at ha
    cases ha
    obtain ⟨x1, x2, -⟩ := sizes i (by rw [← hu.1]; exact hi)
    rw [a3, x1, x2]
  have lv : ∀ l ∈ v.map fun m => m.data, l.length = r2 * c2 := by
    intro l hl
    obtain ⟨m, hm, rfl⟩ := List.mem_map.1 hl
    obtain ⟨i, hi, rfl⟩ := List.getElem_of_mem hm
    obtain ⟨a, ha, a1, a2, a3, a4⟩ := hv.2 i (by rw [← hv.1]; exact hi)
    rw [List.getElem?_eq_getElem hi] at ha
    cases ha
    obtain ⟨x1, x2, -⟩ := sizes i (by rw [← hv.1]; exact hi)
    rw [a3, x1, x2]
  have huv : u.length = v.length := hu.1.trans hv.1.symm
  refine ⟨(List.zipWith (List.zipWith f) (u.map fun m => m.data) (v.map fun m => m.data)).map
    fun l => ⟨r2, c2, defaultRowMajor r2 c2, l⟩, ?_, ?_, ?_⟩
  · dsimp only
    rw [if_pos ⟨rfl, rfl⟩, mapMemory_some u (by rw [hu.1]; exact hpos), mapMemory_some v (by rw [hv.1]; exact hpos),
      Option.bind_some, Option.bind_some, opScalar,
      if_pos (by rw [flatten_length _ _ lu, flatten_length _ _ lv]; simp [huv]), Option.map_some,
      zipWith_flatten f (r2 * c2) _ _ (by simp [huv]) lu lv]
    have hlen : u.length = (List.zipWith (List.zipWith f) (u.map fun m => m.data) (v.map fun m => m.data)).length := by
      simp [huv]
    rw [hlen, EigenVal.split_flatten]
    intro l hl
    obtain ⟨i, hi, rfl⟩ := List.getElem_of_mem hl
    rw [List.getElem_zipWith, List.length_zipWith, lu _ (List.getElem_mem _), lv _ (List.getElem_mem _), Nat.min_self]
  · simp [hu.1, hv.1]
  · intro i hi
    obtain ⟨a, ha, a1, a2, a3, a4⟩ := hu.2 i hi
    obtain ⟨b, hb, b1, b2, b3, b4⟩ := hv.2 i hi
    obtain ⟨x1, x2, -, -⟩ := sizes i hi
    have ma := h1 a (List.mem_of_getElem? ha)
    have mb := h2 b (List.mem_of_getElem? hb)
    refine ⟨⟨r2, c2, defaultRowMajor r2 c2, List.zipWith f a.data b.data⟩, ?_, x1.symm, x2.symm, ?_, ?_⟩
    · simp [List.getElem?_zipWith, ha, hb]
    · simp [List.length_zipWith, a3, b3]
    · intro p q
      have ord : a.rowMajor = b.rowMajor := by
        rw [ma.2.2, mb.2.2, s1 _ _ e1 e2, s2 _ _ e3 e4]
      have hrec : (⟨r2, c2, defaultRowMajor r2 c2, List.zipWith f a.data b.data⟩ : EigenVal R) =
          ⟨a.rows, a.cols, a.rowMajor, List.zipWith f a.data b.data⟩ := by
        rw [a1, a2, ma.2.2, s1 _ _ e1 e2, x1, x2]
      rw [hrec]
      exact coeff_zipWith f a b (a1.trans b1.symm) (a2.trans b2.symm) ord p q _ _ (a4 p q) (b4 p q)

/-- **C72**: `a + b` for matrix valued mesh functions. -/
theorem C72_add_partial [Ring R] (t1 t2 : EigenTy) (a b : MeshFn K (EigenVal R)) (e : Ent) (pts : List (List K))
    (u v : List (EigenVal R)) (ha : a e pts = some u) (hb : b e pts = some v)
    (A B : ∀ i, Matrix (Fin (r i)) (Fin (c i)) R) (hu : Values pts.length u A) (hv : Values pts.length v B)
    (h1 : t1.All u) (h2 : t2.All v) (s1 : t1.Standard) (s2 : t2.Standard) (hn : pts ≠ []) :
    ∃ w, MeshFn.binary (opEntries (· + ·) t1 t2) a b e pts = some w ∧ Values pts.length w fun i => A i + B i := by
  rw [C72_binary _ a b e pts u v ha hb]
  exact C72_entries_partial (· + ·) t1 t2 u v A B hu hv h1 h2 s1 s2 fun _ _ => List.length_pos_iff.2 hn

/-- **C72**: `a - b` for matrix valued mesh functions. -/
theorem C72_sub_partial [Ring R] (t1 t2 : EigenTy) (a b : MeshFn K (EigenVal R)) (e : Ent) (pts : List (List K))
    (u v : List (EigenVal R)) (ha : a e pts = some u) (hb : b e pts = some v)
    (A B : ∀ i, Matrix (Fin (r i)) (Fin (c i)) R) (hu : Values pts.length u A) (hv : Values pts.length v B)
    (h1 : t1.All u) (h2 : t2.All v) (s1 : t1.Standard) (s2 : t2.Standard) (hn : pts ≠ []) :
    ∃ w, MeshFn.binary (opEntries (· - ·) t1 t2) a b e pts = some w ∧ Values pts.length w fun i => A i - B i := by
  rw [C72_binary _ a b e pts u v ha hb]
  exact C72_entries_partial (· - ·) t1 t2 u v A B hu hv h1 h2 s1 s2 fun _ _ => List.length_pos_iff.2 hn

/-- **C72**: the product of matrix valued mesh functions is the pointwise product of matrices, for all sizes and storage
orders. -/
theorem C72_mul [Ring R] {m : ℕ → ℕ} (a b : MeshFn K (EigenVal R)) (e : Ent) (pts : List (List K))
    (u v : List (EigenVal R)) (ha : a e pts = some u) (hb : b e pts = some v)
    (A : ∀ i, Matrix (Fin (r i)) (Fin (m i)) R) (B : ∀ i, Matrix (Fin (m i)) (Fin (c i)) R)
    (hu : Values pts.length u A) (hv : Values pts.length v B) :
    ∃ w, MeshFn.binary mulMatrix a b e pts = some w ∧ Values pts.length w fun i => A i * B i := by
  rw [C72_binary _ a b e pts u v ha hb]
  unfold mulMatrix
  rw [hu.1]
  obtain ⟨w, w1, w2, w3⟩ := mapM_range_some pts.length (fun i => (u[i]?).bind fun a => (v[i]?).bind fun b =>
    if a.cols = b.rows then
      EigenVal.build a.rows b.cols false fun r c =>
        ((List.range a.cols).mapM fun k => (a.coeff r k).bind fun x => (b.coeff k c).map fun y => x * y).map List.sum
    else none) (fun i x => x.Is (A i * B i)) (by
      intro i hi
      obtain ⟨a, ha, a1, a2, a3, a4⟩ := hu.2 i hi
      obtain ⟨b, hb, b1, b2, b3, b4⟩ := hv.2 i hi
      rw [ha, hb, Option.bind_some, Option.bind_some, a1, a2, b2, if_pos b1.symm]
      refine EigenVal.build_spec _ _ _ fun p q => ?_
      obtain ⟨l, l1, l2, l3⟩ := mapM_range_some (m i)
        (fun k => (a.coeff p k).bind fun x => (b.coeff k q).map fun y => x * y)
        (fun k x => ∀ hk : k < m i, x = A i p ⟨k, hk⟩ * B i ⟨k, hk⟩ q) (by
          intro k hk
          exact ⟨_, by rw [a4 p ⟨k, hk⟩, b4 ⟨k, hk⟩ q]; rfl, fun _ => rfl⟩)
      rw [l1, Option.map_some]
      congr 1
      have hl : l = List.ofFn fun k => A i p k * B i k q := by
        apply List.ext_getElem (by simp [l2])
        intro k hk hk'
        obtain ⟨x, hx, hx'⟩ := l3 k (by omega)
        rw [List.getElem?_eq_getElem hk] at hx
        cases hx
        rw [hx' (by omega)]
        simp
      rw [hl, List.sum_ofFn, Matrix.mul_apply])
  exact ⟨w, w1, w2, w3⟩

/-- **C72**: the product of a scalar valued and a matrix (or array) valued mesh function, if fixed size types have the
default storage order. -/
theorem C72_smul_partial [CommRing R] (t : EigenTy) (a : MeshFn K R) (b : MeshFn K (EigenVal R)) (e : Ent)
    (pts : List (List K)) (u : List R) (v : List (EigenVal R)) (ha : a e pts = some u) (hb : b e pts = some v)
    (B : ∀ i, Matrix (Fin (r i)) (Fin (c i)) R) (hu : u.length = pts.length) (hv : Values pts.length v B)
    (ht : t.All v) (hs : t.Standard) (hn : pts ≠ []) :
    ∃ w, MeshFn.binary (mulScalarMatrix t) a b e pts = some w ∧ Values pts.length w fun i => u.getD i 0 • B i := by
  rw [C72_binary _ a b e pts u v ha hb]
  have gen : ∃ w, ((List.range u.length).mapM fun i => (u[i]?).bind fun s => (v[i]?).bind fun b =>
      EigenVal.build b.rows b.cols false fun r c => (b.coeff r c).map fun y => s * y) = some w ∧
      Values pts.length w fun i => u.getD i 0 • B i := by
    rw [hu]
    obtain ⟨w, w1, w2, w3⟩ := mapM_range_some pts.length (fun i => (u[i]?).bind fun s => (v[i]?).bind fun b =>
      EigenVal.build b.rows b.cols false fun r c => (b.coeff r c).map fun y => s * y)
      (fun i m => m.Is (u.getD i 0 • B i)) (by
        intro i hi
        obtain ⟨b, hb, b1, b2, b3, b4⟩ := hv.2 i hi
        have hi' : i < u.length := by omega
        rw [List.getElem?_eq_getElem hi', hb, Option.bind_some, Option.bind_some, b1, b2]
        exact EigenVal.build_spec _ _ _ fun p q => by
          rw [b4, Matrix.smul_apply, List.getD_eq_getElem _ _ hi']; rfl)
    exact ⟨w, w1, w2, w3⟩
  unfold mulScalarMatrix
  rcases e1 : t.rows with _ | r1
  · exact gen
  rcases e2 : t.cols with _ | c1
  · exact gen
  have hpos : 0 < pts.length := List.length_pos_iff.2 hn
  have sizes : ∀ i < pts.length, r i = r1 ∧ c i = c1 := by
    intro i hi
    obtain ⟨b, hb, b1, b2, -⟩ := hv.2 i hi
    obtain ⟨y1, y2, -⟩ := ht b (List.mem_of_getElem? hb)
    exact ⟨by rw [← b1, y1 _ e1], by rw [← b2, y2 _ e2]⟩
  have lv : ∀ l ∈ v.map fun m => m.data, l.length = r1 * c1 := by
    intro l hl
    obtain ⟨m, hm, rfl⟩ := List.mem_map.1 hl
    obtain ⟨i, hi, rfl⟩ := List.getElem_of_mem hm
    obtain ⟨a, ha, a1, a2, a3, a4⟩ := hv.2 i (by rw [← hv.1]; exact hi)
    rw [List.getElem?_eq_getElem hi] at ha
    cases ha
    obtain ⟨x1, x2⟩ := sizes i (by rw [← hv.1]; exact hi)
    rw [a3, x1, x2]
  have lu : ∀ l ∈ u.map fun s => List.replicate (r1 * c1) s, l.length = r1 * c1 := by
    intro l hl
    obtain ⟨m, hm, rfl⟩ := List.mem_map.1 hl
    simp
  have huv : u.length = v.length := hu.trans hv.1.symm
  refine ⟨(List.zipWith (List.zipWith fun x y => x * y) (v.map fun m => m.data)
    (u.map fun s => List.replicate (r1 * c1) s)).map fun l => ⟨r1, c1, defaultRowMajor r1 c1, l⟩, ?_, ?_, ?_⟩
  · dsimp only
    rw [mapMemory_some v (by rw [hv.1]; exact hpos), Option.bind_some, if_pos huv, List.flatMap_def, opScalar,
      if_pos (by rw [flatten_length _ _ lu, flatten_length _ _ lv]; simp [huv]), Option.map_some,
      zipWith_flatten _ (r1 * c1) _ _ (by simp [huv]) lv lu]
    have hlen : u.length = (List.zipWith (List.zipWith fun x y => x * y) (v.map fun m => m.data)
      (u.map fun s => List.replicate (r1 * c1) s)).length := by simp [huv]
    rw [hlen, EigenVal.split_flatten]
    intro l hl
    obtain ⟨i, hi, rfl⟩ := List.getElem_of_mem hl
    rw [List.getElem_zipWith, List.length_zipWith, lu _ (List.getElem_mem _), lv _ (List.getElem_mem _), Nat.min_self]
  · simp [hu, hv.1]
  · intro i hi
    obtain ⟨b, hb, b1, b2, b3, b4⟩ := hv.2 i hi
    obtain ⟨x1, x2⟩ := sizes i hi
    have mb := ht b (List.mem_of_getElem? hb)
    have hi' : i < u.length := by omega
    have hz : List.zipWith (fun x y => x * y) b.data (List.replicate (r1 * c1) u[i]) = b.data.map fun y => u[i] * y := by
      apply List.ext_getElem
      · simp [b3, x1, x2]
      · intro k h1 h2
        simp [mul_comm]
    refine ⟨⟨r1, c1, defaultRowMajor r1 c1, b.data.map fun y => u[i] * y⟩, ?_, x1.symm, x2.symm, ?_, ?_⟩
    · simp [List.getElem?_zipWith, hb, List.getElem?_eq_getElem hi', hz]
    · simp [b3]
    · intro p q
      have hrec : (⟨r1, c1, defaultRowMajor r1 c1, b.data.map fun y => u[i] * y⟩ : EigenVal R) =
          ⟨b.rows, b.cols, b.rowMajor, b.data.map fun y => u[i] * y⟩ := by
        rw [b1, b2, mb.2.2, hs _ _ e1 e2, x1, x2]
      rw [hrec, coeff_map (fun y => u[i] * y) b p q _ (b4 p q)]
      show _ = some ((u.getD i 0 • B i) p q)
      rw [Matrix.smul_apply, List.getD_eq_getElem _ _ hi']
      rfl

/-- **C72**: sums, differences and products of scalar valued mesh functions. -/
theorem C72_scalar (f : R → R → R) (a b : MeshFn K R) (e : Ent) (pts : List (List K)) (u v : List R)
    (ha : a e pts = some u) (hb : b e pts = some v) (hu : u.length = pts.length) (hv : v.length = pts.length) :
    ∃ w, MeshFn.binary (opScalar f) a b e pts = some w ∧ w.length = pts.length ∧
      ∀ i (h : i < u.length) (h' : i < v.length), w[i]? = some (f u[i] v[i]) := by
  rw [C72_binary _ a b e pts u v ha hb, opScalar, if_pos (hu.trans hv.symm)]
  exact ⟨_, rfl, by simp [hu, hv], fun i h h' => by simp [h, h']⟩

/-- **C72**: sums and differences of mesh functions with values of other types. -/
theorem C72_generic {U V W : Type} (f : U → V → W) (a : MeshFn K U) (b : MeshFn K V) (e : Ent) (pts : List (List K))
    (u : List U) (v : List V) (ha : a e pts = some u) (hb : b e pts = some v) (hu : u.length = pts.length)
    (hv : v.length = pts.length) :
    ∃ w, MeshFn.binary (opGeneric f) a b e pts = some w ∧ w.length = pts.length ∧
      ∀ i (h : i < u.length) (h' : i < v.length), w[i]? = some (f u[i] v[i]) := by
  rw [C72_binary _ a b e pts u v ha hb, opGeneric]
  obtain ⟨w, w1, w2, w3⟩ := mapM_range_some u.length (fun i => (u[i]?).bind fun a => (v[i]?).map fun b => f a b)
    (fun i x => ∀ (h : i < u.length) (h' : i < v.length), x = f u[i] v[i]) (by
      intro i hi
      have hi' : i < v.length := by omega
      exact ⟨f u[i] v[i], by simp [hi, hi'], fun _ _ => rfl⟩)
  refine ⟨w, w1, by rw [w2, hu], fun i h h' => ?_⟩
  obtain ⟨x, hx, hx'⟩ := w3 i h
  rw [hx, hx' h h']

/-- **C72** is false for products of mesh functions with values of other types: the result of the operator has no
entries, whatever the number of points. -/
theorem C72_mul_generic_not {U V W : Type} (f : U → V → W) (a : MeshFn K U) (b : MeshFn K V) (e : Ent)
    (pts : List (List K)) (u : List U) (v : List V) (ha : a e pts = some u) (hb : b e pts = some v) :
    MeshFn.binary (mulGeneric f) a b e pts = some [] := by
  rw [C72_binary _ a b e pts u v ha hb]
  rfl

/-- A matrix with two rows and columns which is stored row by row. -/
def rowMajor2 : EigenVal ℚ := ⟨2, 2, true, [1, 2, 3, 4]⟩

/-- `Eigen::Matrix<double, 2, 2, Eigen::RowMajor>`. -/
def rowMajorTy : EigenTy := ⟨some 2, some 2, true⟩

/-- **C72** is false for matrices of fixed size which are stored row by row: the sum of such a matrix with itself is
the transpose of twice the matrix. -/
theorem C72_rowMajor_not : ∃ (A : Matrix (Fin 2) (Fin 2) ℚ) (w : List (EigenVal ℚ)) (m : EigenVal ℚ),
    rowMajorTy.Has rowMajor2 ∧ rowMajor2.Is A ∧
    MeshFn.binary (opEntries (· + ·) rowMajorTy rowMajorTy) (MeshFn.const rowMajor2) (MeshFn.const rowMajor2) (0, 0)
      [[(0 : ℚ), 0]] = some w ∧ w[0]? = some m ∧ m.Is (A + A).transpose ∧ ¬ m.Is (A + A) := by
  refine ⟨!![1, 2; 3, 4], [⟨2, 2, false, [2, 4, 6, 8]⟩], ⟨2, 2, false, [2, 4, 6, 8]⟩, ?_, ?_, ?_, rfl, ?_, ?_⟩
  · refine ⟨?_, ?_, rfl⟩ <;> intro x hx <;> cases hx <;> rfl
  · refine ⟨rfl, rfl, rfl, ?_⟩
    intro i j
    fin_cases i <;> fin_cases j <;> rfl
  · decide +kernel
  · refine ⟨rfl, rfl, rfl, ?_⟩
    intro i j
    fin_cases i <;> fin_cases j <;> decide +kernel
  · rintro ⟨-, -, -, h⟩
    exact absurd (h 0 1) (by decide +kernel)

/-- **C72** is false for the product of a scalar with such a matrix, too. -/
theorem C72_smul_rowMajor_not : ∃ (A : Matrix (Fin 2) (Fin 2) ℚ) (w : List (EigenVal ℚ)) (m : EigenVal ℚ),
    rowMajorTy.Has rowMajor2 ∧ rowMajor2.Is A ∧
    MeshFn.binary (mulScalarMatrix rowMajorTy) (MeshFn.const 2) (MeshFn.const rowMajor2) (0, 0)
      [[(0 : ℚ), 0]] = some w ∧ w[0]? = some m ∧ ¬ m.Is ((2 : ℚ) • A) := by
  refine ⟨!![1, 2; 3, 4], [⟨2, 2, false, [2, 4, 6, 8]⟩], ⟨2, 2, false, [2, 4, 6, 8]⟩, ?_, ?_, ?_, rfl, ?_⟩
  · refine ⟨?_, ?_, rfl⟩ <;> intro x hx <;> cases hx <;> rfl
  · refine ⟨rfl, rfl, rfl, ?_⟩
    intro i j
    fin_cases i <;> fin_cases j <;> rfl
  · decide +kernel
  · rintro ⟨-, -, -, h⟩
    exact absurd (h 0 1) (by decide +kernel)

/-- **C72** without points: for matrices of fixed size the operators refer to the first of no values. -/
theorem C72_no_points_not (f : R → R → R) (r c : ℕ) (a b : MeshFn K (EigenVal R)) (e : Ent) (ha : a e [] = some [])
    (hb : b e [] = some []) (o1 o2 : Bool) :
    MeshFn.binary (opEntries f ⟨some r, some c, o1⟩ ⟨some r, some c, o2⟩) a b e [] = none := by
  rw [C72_binary _ a b e [] [] [] ha hb]
  simp [opEntries, mapMemory]

/-! ### Unary operators -/

/-- **C72**: `-a` for matrix and array valued mesh functions, for all sizes and storage orders. -/
theorem C72_minus [Ring R] (t : EigenTy) (a : MeshFn K (EigenVal R)) (e : Ent) (pts : List (List K))
    (u : List (EigenVal R)) (ha : a e pts = some u) (A : ∀ i, Matrix (Fin (r i)) (Fin (c i)) R)
    (hu : Values pts.length u A) (ht : t.All u) (hn : pts ≠ []) :
    ∃ w, MeshFn.unary (minusEntries t) a e pts = some w ∧ Values pts.length w fun i => -A i := by
  rw [C72_unary _ a e pts u ha]
  have hpos : 0 < pts.length := List.length_pos_iff.2 hn
  have vals : Values pts.length (u.map fun m => (⟨m.rows, m.cols, m.rowMajor, m.data.map fun x => -x⟩ : EigenVal R))
      fun i => -A i := by
    refine ⟨by simp [hu.1], fun i hi => ?_⟩
    obtain ⟨m, hm, a1, a2, a3, a4⟩ := hu.2 i hi
    refine ⟨⟨m.rows, m.cols, m.rowMajor, m.data.map fun x => -x⟩, by simp [hm], a1, a2, by simp [a3], fun p q => ?_⟩
    exact coeff_map (fun x => -x) m p q _ (a4 p q)
  unfold minusEntries
  split
  · rename_i h0
    refine ⟨u, rfl, hu.1, fun i hi => ?_⟩
    obtain ⟨m, hm, a1, a2, a3, a4⟩ := hu.2 i hi
    refine ⟨m, hm, a1, a2, a3, fun p q => ?_⟩
    obtain ⟨x1, x2, -⟩ := ht m (List.mem_of_getElem? hm)
    rcases h0 with h0 | h0
    · exact absurd p.isLt (by have := x1 _ h0; omega)
    · exact absurd q.isLt (by have := x2 _ h0; omega)
  · rcases e1 : t.rows with _ | r1
    · exact ⟨_, rfl, vals⟩
    rcases e2 : t.cols with _ | c1
    · exact ⟨_, rfl, vals⟩
    refine ⟨_, ?_, vals⟩
    dsimp only
    rw [mapMemory_some u (by rw [hu.1]; exact hpos), Option.map_some, List.map_flatten, List.map_map]
    have hlen : u.length = (u.map (List.map (fun x => -x) ∘ fun m => m.data)).length := by simp
    have heq := EigenVal.split_flatten r1 c1 t.rowMajor (u.map (List.map (fun x => -x) ∘ fun m => m.data)) (by
      intro l hl
      obtain ⟨m, hm, rfl⟩ := List.mem_map.1 hl
      obtain ⟨i, hi, rfl⟩ := List.getElem_of_mem hm
      obtain ⟨a, ha, a1, a2, a3, a4⟩ := hu.2 i (by rw [← hu.1]; exact hi)
      rw [List.getElem?_eq_getElem hi] at ha
      cases ha
      obtain ⟨x1, x2, -⟩ := ht _ (List.getElem_mem hi)
      simp [a3, ← a1, ← a2, x1 _ e1, x2 _ e2])
    rw [List.length_map] at heq
    rw [heq, List.map_map]
    congr 1
    apply List.map_congr_left
    intro m hm
    obtain ⟨x1, x2, x3⟩ := ht m hm
    simp [x1 _ e1, x2 _ e2, x3]

/-- **C72**: `transpose(a)`. -/
theorem C72_transpose [Ring R] (a : MeshFn K (EigenVal R)) (e : Ent) (pts : List (List K)) (u : List (EigenVal R))
    (ha : a e pts = some u) (A : ∀ i, Matrix (Fin (r i)) (Fin (c i)) R) (hu : Values pts.length u A) :
    ∃ w, MeshFn.unary opTranspose a e pts = some w ∧ Values pts.length w fun i => (A i).transpose := by
  rw [C72_unary _ a e pts u ha]
  exact mapM_values hu _ _ fun i m hm => by
    obtain ⟨a1, a2, a3, a4⟩ := hm
    rw [a1, a2]
    exact EigenVal.build_spec _ _ _ fun p q => a4 q p

/-- **C72**: `adjoint(a)`. -/
theorem C72_adjoint [Ring R] [StarRing R] (a : MeshFn K (EigenVal R)) (e : Ent) (pts : List (List K))
    (u : List (EigenVal R)) (ha : a e pts = some u) (A : ∀ i, Matrix (Fin (r i)) (Fin (c i)) R)
    (hu : Values pts.length u A) :
    ∃ w, MeshFn.unary opAdjoint a e pts = some w ∧ Values pts.length w fun i => (A i).conjTranspose := by
  rw [C72_unary _ a e pts u ha]
  exact mapM_values hu _ _ fun i m hm => by
    obtain ⟨a1, a2, a3, a4⟩ := hm
    rw [a1, a2]
    exact EigenVal.build_spec _ _ _ fun p q => by rw [a4 q p]; rfl

/-- **C72**: `conjugate(a)`. -/
theorem C72_conjugate [Ring R] [StarRing R] (a : MeshFn K (EigenVal R)) (e : Ent) (pts : List (List K))
    (u : List (EigenVal R)) (ha : a e pts = some u) (A : ∀ i, Matrix (Fin (r i)) (Fin (c i)) R)
    (hu : Values pts.length u A) :
    ∃ w, MeshFn.unary opConjugate a e pts = some w ∧ Values pts.length w fun i => (A i).map star := by
  rw [C72_unary _ a e pts u ha]
  exact mapM_values hu _ _ fun i m hm => by
    obtain ⟨a1, a2, a3, a4⟩ := hm
    rw [a1, a2]
    exact EigenVal.build_spec _ _ _ fun p q => by rw [a4 p q]; rfl

/-- Row-wise or column-wise, the squares of the entries of a vector add up to its squared norm. -/
theorem C72_squaredNorm_partial [CommRing R] (t : EigenTy) (a : MeshFn K (EigenVal R)) (e : Ent) (pts : List (List K))
    (u : List (EigenVal R)) (ha : a e pts = some u) (A : ∀ i, Matrix (Fin (r i)) (Fin (c i)) R)
    (hu : Values pts.length u A) (ht : t.All u) (hn : pts ≠ [])
    (hv : t.Fixed → (t.cols = some 1 ∧ t.rows ≠ some 0) ∨ (t.rows = some 1 ∧ t.cols ≠ some 0)) :
    ∃ w, MeshFn.unary (squaredNormMatrix t) a e pts = some w ∧ w.length = pts.length ∧
      ∀ i < pts.length, w[i]? = some (∑ p, ∑ q, A i p q ^ 2) := by
  rw [C72_unary _ a e pts u ha]
  have hpos : 0 < pts.length := List.length_pos_iff.2 hn
  have dyn : ∃ w, some (u.map fun m => (m.data.map fun x => x * x).sum) = some w ∧ w.length = pts.length ∧
      ∀ i < pts.length, w[i]? = some (∑ p, ∑ q, A i p q ^ 2) := by
    refine ⟨_, rfl, by simp [hu.1], fun i hi => ?_⟩
    obtain ⟨m, hm, hA⟩ := hu.2 i hi
    rw [List.getElem?_map, hm, Option.map_some, hA.sum_sq]
  have mem : ∀ (k : ℕ), (∀ m ∈ u, m.data.length = k) → ∃ w, ((mapMemory u).bind fun um => (List.range u.length).mapM fun i =>
      ((List.range k).mapM fun j => (um[i * k + j]?).map fun x => x * x).map List.sum) = some w ∧
      w.length = pts.length ∧ ∀ i < pts.length, w[i]? = some (∑ p, ∑ q, A i p q ^ 2) := by
    intro k hk
    rw [mapMemory_some u (by rw [hu.1]; exact hpos), Option.bind_some, hu.1]
    obtain ⟨w, w1, w2, w3⟩ := mapM_range_some pts.length (fun i =>
      ((List.range k).mapM fun j => ((u.map fun m => m.data).flatten[i * k + j]?).map fun x => x * x).map List.sum)
      (fun i x => x = ∑ p, ∑ q, A i p q ^ 2) (by
        intro i hi
        obtain ⟨m, hm, hA⟩ := hu.2 i hi
        refine ⟨(m.data.map fun x => x * x).sum, ?_, hA.sum_sq⟩
        rw [mapM_range_get _ (m.data.map fun x => x * x) k (by simp [hk m (List.mem_of_getElem? hm)])]
        · rfl
        · intro j hj
          rw [List.getElem?_map, flatten_getElem? k (u.map fun m => m.data) (by
            intro l hl
            obtain ⟨m, hm, rfl⟩ := List.mem_map.1 hl
            exact hk m hm) i j hj, List.getElem?_map, hm]
          rfl)
    refine ⟨w, w1, w2, fun i hi => ?_⟩
    obtain ⟨x, hx, hx'⟩ := w3 i hi
    rw [hx, hx']
  unfold squaredNormMatrix
  rcases e1 : t.rows with _ | r1
  · exact dyn
  rcases e2 : t.cols with _ | c1
  · exact dyn
  have len : ∀ m ∈ u, m.data.length = r1 * c1 := by
    intro m hm
    obtain ⟨i, hi, rfl⟩ := List.getElem_of_mem hm
    obtain ⟨a, ha, a1, a2, a3, a4⟩ := hu.2 i (by rw [← hu.1]; exact hi)
    rw [List.getElem?_eq_getElem hi] at ha
    cases ha
    obtain ⟨x1, x2, -⟩ := ht _ (List.getElem_mem hi)
    rw [a3, ← a1, ← a2, x1 _ e1, x2 _ e2]
  rcases hv ⟨by simp [e1], by simp [e2]⟩ with ⟨h1, h2⟩ | ⟨h1, h2⟩
  · rw [e2] at h1
    rw [e1] at h2
    cases h1
    dsimp only
    rw [if_pos ⟨Nat.pos_of_ne_zero fun h => h2 (by rw [h]), by omega⟩, if_pos rfl]
    exact mem r1 fun m hm => by rw [len m hm, Nat.mul_one]
  · rw [e1] at h1
    rw [e2] at h2
    cases h1
    dsimp only
    rw [if_pos ⟨by omega, Nat.pos_of_ne_zero fun h => h2 (by rw [h])⟩]
    split
    · rename_i h
      exact mem 1 fun m hm => by rw [len m hm, h]
    · rw [if_pos rfl]
      exact mem c1 fun m hm => by rw [len m hm, Nat.one_mul]

/-- For matrices of fixed size with several rows and columns the squared norm is always zero (the documentation restricts the
operator to scalars and vectors, nothing in the code does). -/
theorem C72_squaredNorm_matrix [CommRing R] (rows cols : ℕ) (hr : 2 ≤ rows) (hc : 2 ≤ cols) (o : Bool)
    (a : MeshFn K (EigenVal R)) (e : Ent) (pts : List (List K)) (u : List (EigenVal R)) (ha : a e pts = some u) :
    MeshFn.unary (squaredNormMatrix ⟨some rows, some cols, o⟩) a e pts = some (List.replicate u.length 0) := by
  rw [C72_unary _ a e pts u ha]
  unfold squaredNormMatrix
  dsimp only
  rw [if_pos ⟨by omega, by omega⟩, if_neg (by omega), if_neg (by omega)]

/-! ### Basic mesh functions -/

/-- **C72**: a constant has its value in all points. -/
theorem C72_const {V : Type} (value : V) (e : Ent) (pts : List (List K)) :
    ∃ w, MeshFn.const value e pts = some w ∧ w.length = pts.length ∧ ∀ i < pts.length, w[i]? = some value :=
  ⟨_, rfl, by simp, fun i hi => by simp [hi]⟩

/-- **C72**: a function of world coordinates is evaluated at the positions of the points. -/
theorem C72_global {V : Type} [Field K] [LinearOrder K] {w : ℕ} (T : Topo) (geo : Ent → Option (Geo K w))
    (f : Vec K w → V) (e : Ent) (g : Geo K w) (hg : geo e = some g) (hT : T.refEl e = some g.kind)
    (pts : List (List K)) (pos : List (Vec K w)) (hp : ∀ x ∈ pts, x.length = g.kind.dimension)
    (hl : pos.length = pts.length) (hpos : ∀ (i : ℕ) x, pts[i]? = some x → g.global x = pos[i]?) :
    ∃ v, MeshFn.global T geo f e pts = some v ∧ v.length = pts.length ∧
      ∀ (i : ℕ) p, pos[i]? = some p → v[i]? = some (f p) := by
  refine ⟨pos.map f, ?_, by simp [hl], fun i p hi => by simp [hi]⟩
  unfold MeshFn.global
  rw [hT, Option.bind_some, if_pos (by simpa using hp), hg, Option.bind_some]
  have : pts.mapM g.global = some pos := by
    clear hp
    induction pts generalizing pos with
    | nil =>
      rw [List.length_nil, List.length_eq_zero_iff] at hl
      subst hl; rfl
    | cons x pts ih =>
      cases pos with
      | nil => simp at hl
      | cons p pos =>
        rw [List.mapM_cons, hpos 0 x rfl, ih pos (by simpa using hl) fun i y hy => by simpa using hpos (i + 1) y (by simpa using hy)]
        rfl
  rw [this]
  rfl

/-! ### Concrete cases -/

/-- Two mesh functions with values in `Eigen::Matrix2d`, evaluated in two points: the hypotheses of the theorems hold. -/
example : ∃ (u : List (EigenVal ℚ)) (A : ∀ i : ℕ, Matrix (Fin 2) (Fin 2) ℚ),
    MeshFn.const (⟨2, 2, false, [1, 3, 2, 4]⟩ : EigenVal ℚ) (0, 0) [[(0 : ℚ), 0], [1, 0]] = some u ∧
    Values 2 u A ∧ (⟨some 2, some 2, false⟩ : EigenTy).All u ∧ (⟨some 2, some 2, false⟩ : EigenTy).Standard ∧
    (⟨some 2, some 2, false⟩ : EigenTy).Fixed := by
  refine ⟨_, fun _ => !![1, 2; 3, 4], rfl, ⟨rfl, ?_⟩, ?_, ?_, by simp [EigenTy.Fixed]⟩
  · intro i hi
    refine ⟨⟨2, 2, false, [1, 3, 2, 4]⟩, (List.getElem?_replicate).trans (if_pos hi), rfl, rfl, rfl, ?_⟩
    intro p q
    fin_cases p <;> fin_cases q <;> rfl
  · intro m hm
    rw [List.eq_of_mem_replicate hm]
    refine ⟨?_, ?_, rfl⟩ <;> intro x hx <;> cases hx <;> rfl
  · intro r c hr hc
    cases hr; cases hc
    rfl

/-- A dynamic vector, the type of gradients. -/
example : (⟨none, some 1, false⟩ : EigenTy).All [(⟨2, 1, false, [3, 4]⟩ : EigenVal ℚ)] ∧
    (⟨none, some 1, false⟩ : EigenTy).Standard ∧
    Values 1 [(⟨2, 1, false, [3, 4]⟩ : EigenVal ℚ)] fun _ => !![3; 4] := by
  refine ⟨?_, ?_, rfl, ?_⟩
  · intro m hm
    rw [List.mem_singleton] at hm
    subst hm
    refine ⟨?_, ?_, rfl⟩ <;> intro x hx <;> cases hx
    rfl
  · intro r c hr
    cases hr
  · intro i hi
    obtain rfl : i = 0 := by omega
    refine ⟨_, rfl, rfl, rfl, rfl, ?_⟩
    intro p q
    fin_cases p <;> fin_cases q <;> rfl

/-- A function of position on an edge from `(0, 0)` to `(2, 2)`. -/
example : MeshFn.global (K := ℚ) ⟨2, 1, 0, fun _ => (0, 1), fun _ => ⟨[], [], []⟩⟩
    (fun _ => some (.segO1 ![0, 0] ![2, 2])) (fun v => v 0 + v 1) (1, 0) [[1 / 2], [1]] = some [2, 4] := by
  decide +kernel

end Verif
