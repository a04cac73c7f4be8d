import Mathlib.Algebra.BigOperators.Group.List.Basic
import Verif.Lemmas.FillRows

/-!
# Lemmas: the hierarchic shape functions in closed form
-/

namespace Verif
variable {K : Type} [Field K]

/-- Arithmetic with lengths of blocks. -/
local macro "len" : tactic => `(tactic| (simp only [List.length_append, oriented_length, List.length_map,
  List.length_range, List.length_cons, List.length_nil] <;> omega))

/-! ### Segments -/

/-- Shape functions of the segment. -/
def segShapes (p : ℕ) (x : K) : List K :=
  [1 - x, x] ++ (List.range (p - 1)).map fun i => iLegendre (i + 2) x 1

@[simp] theorem segShapes_length (p : ℕ) (hp : 1 ≤ p) (x : K) : (segShapes p x).length = p + 1 := by
  simp [segShapes]; omega

theorem hierSegment_eval (p : ℕ) (hp : 1 ≤ p) (qr : QuadRule K) (x : K) :
    (hierSegment p qr).eval [x] = some (segShapes p x) := by
  have h := covers_range (α := K) (p - 1) 2 (fun i => (i + 2, some (iLegendre (i + 2) x 1)))
    (fun i => iLegendre (i + 2) x 1) true (fun i _ => by simp [add_comm])
  exact (covers_cons _ (covers_cons _ h)).fill (by simp [oriented]; omega)

theorem hierSegment_grad (p : ℕ) (hp : 1 ≤ p) (qr : QuadRule K) (x : K) :
    (hierSegment p qr).grad [x] = some ([[-1], [1]] ++ (List.range (p - 1)).map fun i =>
      [iLegendreDx (i + 2) x 1]) := by
  have h := covers_range (α := List K) (p - 1) 2 (fun i => (i + 2, some [iLegendreDx (i + 2) x 1]))
    (fun i => [iLegendreDx (i + 2) x 1]) true (fun i _ => by simp [add_comm])
  exact (covers_cons _ (covers_cons _ h)).fill (by simp [oriented]; omega)

theorem hierSegment_toDofs (p : ℕ) (hp : 1 ≤ p) (qr : QuadRule K) (f0 f1 : K) (vals : List K)
    (hl : vals.length = qr.numPoints) :
    (hierSegment p qr).toDofs ([f0, f1] ++ vals) = some ([f0, f1] ++ (List.range (p - 1)).map fun i =>
      segDual qr (i + 2) f0 f1 vals) := by
  have h := covers_loop (α := K) 2 (p - 1) 2 (fun i => (i, some (segDual qr i f0 f1 vals)))
    (fun i => segDual qr (i + 2) f0 f1 vals) true (fun i _ => by simp [add_comm])
  have hd : ([f0, f1] ++ vals).drop (([f0, f1] ++ vals).length - qr.numPoints) = vals := by
    rw [← hl, List.length_append, Nat.add_sub_cancel]
    rfl
  change (if p + 1 ≤ 2 ∨ qr.numPoints ≤ (f0 :: f1 :: vals).length then fillRows (p + 1) _ else none) = _
  rw [if_pos (Or.inr (by simp [hl]; omega)), hd, show p + 1 - 2 = p - 1 by omega]
  exact (covers_cons _ (covers_cons _ h)).fill (by simp [oriented]; omega)

/-! ### Triangles -/

namespace HierTria

theorem interior_length (p : ℕ) : (interior p).length = if p ≤ 2 then 0 else (p - 2) * (p - 1) / 2 := by
  rw [interior]
  split
  · rename_i h
    rw [if_neg (by omega), List.length_flatMap]
    obtain ⟨m, rfl⟩ : ∃ m, p = m + 2 := ⟨p - 2, by omega⟩
    have : ∀ n c, ((List.range n).map fun i => ((List.range (n + c + 2 - i - 2)).map
        fun j => (i, j)).length).sum = (n * (n + 1) + 2 * c * n) / 2 := by
      intro n
      induction n with
      | zero => intro c; simp
      | succ n ih =>
        intro c
        rw [List.range_succ, List.map_append, List.sum_append,
          show n + 1 + c = n + (c + 1) by ring, ih (c + 1)]
        simp only [List.map_cons, List.map_nil, List.sum_cons, List.sum_nil, List.length_map,
          List.length_range]
        rw [show n + (c + 1) + 2 - n - 2 = c + 1 by omega]
        have : (n + 1) * (n + 1 + 1) + 2 * c * (n + 1) = (n * (n + 1) + 2 * (c + 1) * n) + 2 * (c + 1) := by ring
        rw [this, Nat.add_mul_div_left _ _ two_pos]
        omega
    have h2 := this m 0
    simp only [add_zero, mul_zero, zero_mul] at h2
    rw [show m + 2 - 2 = m by omega, show m + 2 - 1 = m + 1 by omega, ← h2]
  · rename_i h
    rw [if_pos (by omega)]; rfl

/-- The barycentric coordinate functions. -/
def bary (x y : K) : ℕ → K
  | 0 => 1 - x - y
  | 1 => x
  | _ => y

/-- The `i`-th function of edge `j`. -/
def edgeFn (F : HierTria K) (j i : ℕ) (x y : K) : K :=
  iLegendre (i + 2) (if F.o j then bary x y ((j + 1) % 3) else bary x y j)
    (bary x y j + bary x y ((j + 1) % 3))

/-- The interior functions. -/
def intFn (F : HierTria K) (ij : ℕ × ℕ) (x y : K) : K :=
  F.edgeFn 0 ij.1 x y * iJacobi (ij.2 + 1) ((2 * ij.1 + 4 : ℕ) : K) y

/-- The shape functions of one edge. -/
def edgeShapes (F : HierTria K) (j : ℕ) (x y : K) : List K :=
  oriented (F.o j) ((List.range (F.e j - 1)).map fun i => F.edgeFn j i x y)

/-- All shape functions. -/
def shapes (F : HierTria K) (x y : K) : List K :=
  [1 - x - y, x, y] ++ F.edgeShapes 0 x y ++ F.edgeShapes 1 x y ++ F.edgeShapes 2 x y ++
    (interior F.p).map fun ij => F.intFn ij x y

@[simp] theorem edgeShapes_length (F : HierTria K) (j : ℕ) (x y : K) :
    (F.edgeShapes j x y).length = F.e j - 1 := by simp [edgeShapes]

theorem numInterior_eq (F : HierTria K) : F.numInterior = (interior F.p).length := (interior_length F.p).symm

theorem shapes_length (F : HierTria K) (x y : K) : (F.shapes x y).length = F.num := by
  simp [shapes, num, numInterior_eq]; omega

theorem eval_eq (F : HierTria K) (x y : K) :
    F.eval [x, y] = some (F.shapes x y) := by
  have h0 := covers_range (α := K) (F.e 0 - 1) 3 (fun i =>
      if F.o 0 then (3 + i, some (iLegendre (i + 2) x (1 - x - y + x)))
      else (F.e 0 + 1 - i, some (iLegendre (i + 2) (1 - x - y) (1 - x - y + x))))
    (fun i => F.edgeFn 0 i x y) (F.o 0) (fun i hi => by
      cases h : F.o 0
      · simp only [edgeFn, h, bary, Bool.false_eq_true, if_false]
        congr 1
        omega
      · simp [edgeFn, h, bary])
  have h1 := covers_range (α := K) (F.e 1 - 1) (3 + (F.e 0 - 1)) (fun i =>
      if F.o 1 then (3 + (F.e 0 - 1) + i, some (iLegendre (i + 2) y (x + y)))
      else (3 + (F.e 0 - 1) + F.e 1 - 2 - i, some (iLegendre (i + 2) x (x + y))))
    (fun i => F.edgeFn 1 i x y) (F.o 1) (fun i hi => by
      cases h : F.o 1
      · simp only [edgeFn, h, bary, Bool.false_eq_true, if_false]
        congr 1
        omega
      · simp [edgeFn, h, bary])
  have h2 := covers_range (α := K) (F.e 2 - 1) (3 + (F.e 0 - 1) + (F.e 1 - 1)) (fun i =>
      if F.o 2 then (3 + (F.e 0 - 1) + (F.e 1 - 1) + i,
        some (iLegendre (i + 2) (1 - x - y) (y + (1 - x - y))))
      else (3 + (F.e 0 - 1) + (F.e 1 - 1) + F.e 2 - 2 - i,
        some (iLegendre (i + 2) y (y + (1 - x - y)))))
    (fun i => F.edgeFn 2 i x y) (F.o 2) (fun i hi => by
      cases h : F.o 2
      · simp only [edgeFn, h, bary, Bool.false_eq_true, if_false]
        congr 1
        omega
      · simp [edgeFn, h, bary])
  have hi := covers_counted (3 + (F.e 0 - 1) + (F.e 1 - 1) + (F.e 2 - 1))
    ((interior F.p).map fun ij =>
      (if F.o 0 then iLegendre (ij.1 + 2) x (1 - x - y + x) else
        iLegendre (ij.1 + 2) (1 - x - y) (1 - x - y + x)) *
        iJacobi (ij.2 + 1) ((2 * ij.1 + 4 : ℕ) : K) y)
  have hint : ((interior F.p).map fun ij =>
      (if F.o 0 then iLegendre (ij.1 + 2) x (1 - x - y + x) else
        iLegendre (ij.1 + 2) (1 - x - y) (1 - x - y + x)) *
        iJacobi (ij.2 + 1) ((2 * ij.1 + 4 : ℕ) : K) y) = (interior F.p).map fun ij => F.intFn ij x y := by
    apply List.map_congr_left
    intro ij _
    cases h : F.o 0 <;> simp [intFn, edgeFn, h, bary]
  have hv : Covers [(0, some (1 - x - y)), (1, some x), (2, some y)] 0 [1 - x - y, x, y] :=
    covers_cons _ (covers_cons _ (covers_cons _ (covers_nil _)))
  have hall := (((hv.append h0 rfl).append h1 (by len)).append h2 (by len)).append hi
    (by len)
  rw [hint] at hall
  rw [eval]
  simp only [hint]
  rw [if_pos]
  · exact hall.fill (by rw [← shapes_length F x y]; rfl)
  · rw [num, numInterior_eq, List.length_map]; omega

/-- The gradients of the barycentric coordinate functions. -/
def dbary : ℕ → K × K
  | 0 => (-1, -1)
  | 1 => (1, 0)
  | _ => (0, 1)

/-- Gradient of an edge function. -/
def edgeFnD (F : HierTria K) (j i : ℕ) (x y : K) : List K :=
  edgeGrad (i + 2) (if F.o j then bary x y ((j + 1) % 3) else bary x y j)
    (bary x y j + bary x y ((j + 1) % 3)) (if F.o j then dbary ((j + 1) % 3) else dbary j) (dbary j)
    (dbary ((j + 1) % 3))

/-- Gradient of an interior function. -/
def intFnD (F : HierTria K) (ij : ℕ × ℕ) (x y : K) : List K :=
  [iJacobi (ij.2 + 1) ((2 * ij.1 + 4 : ℕ) : K) y * (F.edgeFnD 0 ij.1 x y).getD 0 0 +
      F.edgeFn 0 ij.1 x y * iJacobiDx (ij.2 + 1) ((2 * ij.1 + 4 : ℕ) : K) y * 0,
   iJacobi (ij.2 + 1) ((2 * ij.1 + 4 : ℕ) : K) y * (F.edgeFnD 0 ij.1 x y).getD 1 0 +
      F.edgeFn 0 ij.1 x y * iJacobiDx (ij.2 + 1) ((2 * ij.1 + 4 : ℕ) : K) y * 1]

/-- All gradients. -/
def grads (F : HierTria K) (x y : K) : List (List K) :=
  [[-1, -1], [1, 0], [0, 1]] ++
    oriented (F.o 0) ((List.range (F.e 0 - 1)).map fun i => F.edgeFnD 0 i x y) ++
    oriented (F.o 1) ((List.range (F.e 1 - 1)).map fun i => F.edgeFnD 1 i x y) ++
    oriented (F.o 2) ((List.range (F.e 2 - 1)).map fun i => F.edgeFnD 2 i x y) ++
    (interior F.p).map fun ij => F.intFnD ij x y

theorem grads_length (F : HierTria K) (x y : K) : (F.grads x y).length = F.num := by
  simp [grads, num, numInterior_eq]; omega

theorem grad_eq (F : HierTria K) (x y : K) :
    F.grad [x, y] = some (F.grads x y) := by
  have h0 := covers_range (α := List K) (F.e 0 - 1) 3 (fun i =>
      if F.o 0 then (3 + i, some (edgeGrad (i + 2) x (1 - x - y + x) (1, 0) (-1, -1) (1, 0)))
      else (3 + F.e 0 - 2 - i, some (edgeGrad (i + 2) (1 - x - y) (1 - x - y + x) (-1, -1) (-1, -1) (1, 0))))
    (fun i => F.edgeFnD 0 i x y) (F.o 0) (fun i hi => by
      cases h : F.o 0
      · simp only [edgeFnD, h, bary, dbary, Bool.false_eq_true, if_false]
        congr 1
        omega
      · simp [edgeFnD, h, bary, dbary])
  have h1 := covers_range (α := List K) (F.e 1 - 1) (3 + (F.e 0 - 1)) (fun i =>
      if F.o 1 then (3 + (F.e 0 - 1) + i, some (edgeGrad (i + 2) y (x + y) (0, 1) (1, 0) (0, 1)))
      else (3 + (F.e 0 - 1) + F.e 1 - 2 - i, some (edgeGrad (i + 2) x (x + y) (1, 0) (1, 0) (0, 1))))
    (fun i => F.edgeFnD 1 i x y) (F.o 1) (fun i hi => by
      cases h : F.o 1
      · simp only [edgeFnD, h, bary, dbary, Bool.false_eq_true, if_false]
        congr 1
        omega
      · simp [edgeFnD, h, bary, dbary])
  have h2 := covers_range (α := List K) (F.e 2 - 1) (3 + (F.e 0 - 1) + (F.e 1 - 1)) (fun i =>
      if F.o 2 then (3 + (F.e 0 - 1) + (F.e 1 - 1) + i,
        some (edgeGrad (i + 2) (1 - x - y) (y + (1 - x - y)) (-1, -1) (0, 1) (-1, -1)))
      else (3 + (F.e 0 - 1) + (F.e 1 - 1) + F.e 2 - 2 - i,
        some (edgeGrad (i + 2) y (y + (1 - x - y)) (0, 1) (0, 1) (-1, -1))))
    (fun i => F.edgeFnD 2 i x y) (F.o 2) (fun i hi => by
      cases h : F.o 2
      · simp only [edgeFnD, h, bary, dbary, Bool.false_eq_true, if_false]
        congr 1
        omega
      · simp [edgeFnD, h, bary, dbary])
  have hv : Covers [(0, some ([-1, -1] : List K)), (1, some [1, 0]), (2, some [0, 1])] 0
      [[-1, -1], [1, 0], [0, 1]] :=
    covers_cons _ (covers_cons _ (covers_cons _ (covers_nil _)))
  have hi := covers_counted (3 + (F.e 0 - 1) + (F.e 1 - 1) + (F.e 2 - 1))
    ((interior F.p).map fun ij => F.intFnD ij x y)
  have hall := (((hv.append h0 rfl).append h1 (by len)).append h2 (by len)).append hi
    (by len)
  have hint : ∀ ij : ℕ × ℕ, ([iJacobi (ij.2 + 1) ((2 * ij.1 + 4 : ℕ) : K) y *
        (if F.o 0 = true then edgeGrad (ij.1 + 2) x (1 - x - y + x) (1, 0) (-1, -1) (1, 0)
          else edgeGrad (ij.1 + 2) (1 - x - y) (1 - x - y + x) (-1, -1) (-1, -1) (1, 0)).getD 0 0 +
        (if F.o 0 = true then iLegendre (ij.1 + 2) x (1 - x - y + x)
          else iLegendre (ij.1 + 2) (1 - x - y) (1 - x - y + x)) *
          iJacobiDx (ij.2 + 1) ((2 * ij.1 + 4 : ℕ) : K) y * 0,
      iJacobi (ij.2 + 1) ((2 * ij.1 + 4 : ℕ) : K) y *
        (if F.o 0 = true then edgeGrad (ij.1 + 2) x (1 - x - y + x) (1, 0) (-1, -1) (1, 0)
          else edgeGrad (ij.1 + 2) (1 - x - y) (1 - x - y + x) (-1, -1) (-1, -1) (1, 0)).getD 1 0 +
        (if F.o 0 = true then iLegendre (ij.1 + 2) x (1 - x - y + x)
          else iLegendre (ij.1 + 2) (1 - x - y) (1 - x - y + x)) *
          iJacobiDx (ij.2 + 1) ((2 * ij.1 + 4 : ℕ) : K) y * 1] : List K) = F.intFnD ij x y := by
    intro ij
    cases h : F.o 0 <;> simp [intFnD, edgeFn, edgeFnD, h, bary, dbary]
  rw [grad]
  simp only [hint]
  rw [if_pos]
  · exact hall.fill (by rw [← grads_length F x y]; rfl)
  · rw [num, numInterior_eq, List.length_map]; omega

end HierTria

/-! ### Quadrilaterals -/

namespace HierQuad

/-- One-dimensional shape functions by index. -/
def fn1 : ℕ → K → K
  | 0, x => 1 - x
  | 1, x => x
  | i + 2, x => iLegendre (i + 2) x 1

/-- Their derivatives. -/
def fn1D : ℕ → K → K
  | 0, _ => -1
  | 1, _ => 1
  | i + 2, x => iLegendreDx (i + 2) x 1

theorem segShapes_get (p : ℕ) (x : K) (i : ℕ) (hi : i ≤ p) (hp : 1 ≤ p) :
    (segShapes p x)[i]? = some (fn1 i x) := by
  match i with
  | 0 => rfl
  | 1 => rfl
  | i + 2 =>
    simp only [segShapes, List.cons_append, List.nil_append, List.getElem?_cons_succ]
    simp [fn1, show i < p - 1 by omega]

/-- The result of `rows` in closed form. -/
def block {α β : Type} (F : HierQuad K) (vx vy fx fy : ℕ → β) (c : β → β → α) : List α :=
  [c (vx 0) (vy 0), c (vx 1) (vy 0), c (vx 1) (vy 1), c (vx 0) (vy 1)] ++
  oriented (F.o 0) ((List.range (F.e 0 - 1)).map fun i =>
    c (if F.o 0 then vx (i + 2) else fx (i + 2)) (vy 0)) ++
  oriented (F.o 1) ((List.range (F.e 1 - 1)).map fun i =>
    c (vx 1) (if F.o 1 then vy (i + 2) else fy (i + 2))) ++
  oriented (F.o 2) ((List.range (F.e 2 - 1)).map fun i =>
    c (if F.o 2 then fx (i + 2) else vx (i + 2)) (vy 1)) ++
  oriented (F.o 3) ((List.range (F.e 3 - 1)).map fun i =>
    c (vx 0) (if F.o 3 then fy (i + 2) else vy (i + 2))) ++
  (List.range (F.p - 1)).flatMap fun i => (List.range (F.p - 1)).map fun j => c (vx (j + 2)) (vy (i + 2))

theorem block_length {α β : Type} (F : HierQuad K) (vx vy fx fy : ℕ → β) (c : β → β → α) :
    (F.block vx vy fx fy c).length = F.num := by
  simp [block, num, numInterior]
  omega

/-- The degree of the one-dimensional element. -/
def deg1 (F : HierQuad K) : ℕ := max F.p (max (F.e 0) (max (F.e 1) (max (F.e 2) (F.e 3))))

theorem rows_covers {α β : Type} (F : HierQuad K) (vx vy fx fy : ℕ → Option β) (gx gy hx hy : ℕ → β)
    (c : β → β → α)
    (h1 : ∀ i ≤ F.deg1, vx i = some (gx i) ∧ vy i = some (gy i) ∧ fx i = some (hx i) ∧ fy i = some (hy i))
    (hd : 1 ≤ F.deg1) :
    Covers (F.rows vx vy fx fy fun a b => a.bind fun a => b.map fun b => c a b) 0
      (F.block gx gy hx hy c) := by
  have hle : F.p ≤ F.deg1 ∧ F.e 0 ≤ F.deg1 ∧ F.e 1 ≤ F.deg1 ∧ F.e 2 ≤ F.deg1 ∧ F.e 3 ≤ F.deg1 := by
    simp [deg1]
  obtain ⟨b0, b1, b2, b3⟩ := h1 0 (by omega)
  obtain ⟨c0, c1, c2, c3⟩ := h1 1 (by omega)
  rw [rows, block]
  refine Covers.append (Covers.append (Covers.append (Covers.append (Covers.append (b := 0) ?_ (b' := 4) ?_ ?_)
    (b' := 4 + (F.e 0 - 1)) ?_ ?_) (b' := 4 + (F.e 0 - 1) + (F.e 1 - 1)) ?_ ?_)
    (b' := 4 + (F.e 0 - 1) + (F.e 1 - 1) + (F.e 2 - 1)) ?_ ?_)
    (b' := 4 + (F.e 0 - 1) + (F.e 1 - 1) + (F.e 2 - 1) + (F.e 3 - 1)) ?_ ?_
  · rw [b0, b1, c0, c1]
    exact covers_cons _ (covers_cons _ (covers_cons _ (covers_cons _ (covers_nil _))))
  · apply covers_range
    intro i hi
    obtain ⟨d0, d1, d2, d3⟩ := h1 (2 + i) (by omega)
    rw [b1, d0, d2, add_comm 2 i]
    cases F.o 0 <;> simp
    omega
  · rfl
  · apply covers_range
    intro i hi
    obtain ⟨d0, d1, d2, d3⟩ := h1 (2 + i) (by omega)
    rw [c0, d1, d3, add_comm 2 i]
    cases F.o 1 <;> simp
    omega
  · len
  · apply covers_range
    intro i hi
    obtain ⟨d0, d1, d2, d3⟩ := h1 (2 + i) (by omega)
    rw [c1, d0, d2, add_comm 2 i]
    cases F.o 2 <;> simp
    omega
  · len
  · apply covers_range
    intro i hi
    obtain ⟨d0, d1, d2, d3⟩ := h1 (2 + i) (by omega)
    rw [b0, d1, d3, add_comm 2 i]
    cases F.o 3 <;> simp
    omega
  · len
  · have : ((List.range (F.p - 1)).flatMap fun i => (List.range (F.p - 1)).map fun j =>
        ((vx (j + 2)).bind fun a => (vy (i + 2)).map fun b => c a b)) =
        ((List.range (F.p - 1)).flatMap fun i => (List.range (F.p - 1)).map fun j =>
          c (gx (j + 2)) (gy (i + 2))).map some := by
      rw [List.map_flatMap]
      apply List.flatMap_congr
      intro i hi
      rw [List.map_map]
      apply List.map_congr_left
      intro j hj
      rw [List.mem_range] at hi hj
      rw [(h1 (j + 2) (by omega)).1, (h1 (i + 2) (by omega)).2.1]
      rfl
    rw [this, List.mapIdx_eq_zipIdx_map, List.zipIdx_map, List.map_map]
    have h := covers_counted (4 + (F.e 0 - 1) + (F.e 1 - 1) + (F.e 2 - 1) + (F.e 3 - 1))
      ((List.range (F.p - 1)).flatMap fun i => (List.range (F.p - 1)).map fun j =>
          c (gx (j + 2)) (gy (i + 2)))
    rw [HierTria.counted, List.mapIdx_eq_zipIdx_map] at h
    exact h
  · len

/-- All shape functions. -/
def shapes (F : HierQuad K) (x y : K) : List K :=
  F.block (fun i => fn1 i x) (fun i => fn1 i y) (fun i => fn1 i (1 - x)) (fun i => fn1 i (1 - y))
    fun a b => a * b

theorem shapes_length (F : HierQuad K) (x y : K) : (F.shapes x y).length = F.num := block_length ..

theorem eval_eq (F : HierQuad K) (hd : 1 ≤ F.deg1) (x y : K) : F.eval [x, y] = some (F.shapes x y) := by
  have hs : ∀ z : K, F.fe1d.eval [z] = some (segShapes F.deg1 z) := fun z =>
    hierSegment_eval _ hd _ z
  have hr : F.allRows = true := by
    apply decide_eq_true
    simp only [num, numInterior]
    generalize (F.p - 1) * (F.p - 1) = m
    omega
  rw [eval]
  simp only [hs, Option.bind_some, hr, if_true]
  refine (rows_covers F _ _ _ _ _ _ _ _ _ (fun i hi => ?_) hd).fill (block_length ..).symm
  exact ⟨segShapes_get _ _ _ hi hd, segShapes_get _ _ _ hi hd, segShapes_get _ _ _ hi hd,
    segShapes_get _ _ _ hi hd⟩

/-- All gradients. -/
def grads (F : HierQuad K) (x y : K) : List (List K) :=
  F.block (fun i => (fn1 i x, fn1D i x)) (fun i => (fn1 i y, fn1D i y))
    (fun i => (fn1 i (1 - x), -fn1D i (1 - x))) (fun i => (fn1 i (1 - y), -fn1D i (1 - y)))
    fun a b => [a.2 * b.1, a.1 * b.2]

theorem grad_eq (F : HierQuad K) (hd : 1 ≤ F.deg1) (x y : K) : F.grad [x, y] = some (F.grads x y) := by
  have hs : ∀ z : K, F.fe1d.eval [z] = some (segShapes F.deg1 z) := fun z =>
    hierSegment_eval _ hd _ z
  have hg : ∀ z : K, F.fe1d.grad [z] = some ([[-1], [1]] ++ (List.range (F.deg1 - 1)).map fun i =>
      [iLegendreDx (i + 2) z 1]) := fun z => hierSegment_grad _ hd _ z
  have hget : ∀ (z : K) (i : ℕ), i ≤ F.deg1 → ([[-1], [1]] ++ (List.range (F.deg1 - 1)).map fun i =>
      [iLegendreDx (i + 2) z 1])[i]? = some [fn1D i z] := by
    intro z i hi
    match i with
    | 0 => rfl
    | 1 => rfl
    | i + 2 =>
      simp only [List.cons_append, List.nil_append, List.getElem?_cons_succ]
      simp [fn1D, show i < F.deg1 - 1 by omega]
  rw [grad]
  simp only [hs, hg, Option.bind_some]
  refine (rows_covers F _ _ _ _ _ _ _ _ _ (fun i hi => ?_) hd).fill (block_length ..).symm
  rw [segShapes_get _ _ _ hi hd, segShapes_get _ _ _ hi hd, segShapes_get _ _ _ hi hd,
    segShapes_get _ _ _ hi hd, hget _ _ hi, hget _ _ hi, hget _ _ hi, hget _ _ hi]
  simp

end HierQuad
end Verif
