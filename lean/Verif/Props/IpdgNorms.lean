import Verif.Lemmas.IpdgNorms
import Verif.Props.IpdgFlow

/-!
# C112: norms of discontinuous velocities
-/

namespace Verif
open Geo Dpg Ipdg Finset

variable {geo : Ent → Option (Geo ℝ 2)} {pos : ℕ → Vec ℝ 2} {m : MeshObj}

namespace Ipdg

theorem frobSq_nonneg {r c : ℕ} (A : Matrix (Fin r) (Fin c) ℝ) : 0 ≤ frobSq A :=
  Finset.sum_nonneg fun _ _ => Finset.sum_nonneg fun _ _ => sq_nonneg _

theorem cellQuad_nonneg {T : Topo} {qr : QuadRule ℝ} (hw : ∀ w ∈ qr.weights, 0 ≤ w) {g : Vec ℝ 2 → ℝ} (hg : ∀ x, 0 ≤ g x) (c : ℕ) :
    0 ≤ cellQuad T pos qr g c := by
  refine List.sum_nonneg fun x hx => ?_
  obtain ⟨q, hq, rfl⟩ := List.mem_map.1 hx
  exact mul_nonneg (mul_nonneg (hw _ (List.of_mem_zip hq).1) (abs_nonneg _)) (hg _)

theorem sqrtOf_nonneg {x : ℝ} (h : 0 ≤ x) : sqrtOf x = some (Real.sqrt x) := if_neg (not_lt.2 h)

theorem edgeJumpTerm_one {T : Topo} (hM : TriaMesh T geo pos) (hman : Manifold T) {qr : QuadRule ℝ} {ω : ℝ} (h1 : qr.points = [[1 / 2]])
    (h2 : qr.weights = [ω]) (F : ℕ → Vec ℝ 2 → Vec ℝ 2) {e : ℕ} (he : e < T.numEdges) :
    edgeJumpTerm T pos qr F e = ω * frobSq (jumpOf T pos F e fun s => pointOnSide (tri T pos s.1) s.2 (1 / 2)) := by
  obtain ⟨⟨c, k⟩, hs⟩ := Finset.card_pos.1 (show 0 < (sidesAt T e).card by have := (hman e he).1; omega)
  obtain ⟨hc, hk⟩ := mem_sidesAt.1 hs
  have hpos := edgeLength_pos hM hc k
  rw [hk] at hpos
  have hj : (jumpOf T pos F e fun s => pointOnSide (tri T pos s.1) s.2 (1 / 2)) = jumpOf T pos F e fun _ => edgePoint T pos e (1 / 2) := by
    unfold jumpOf
    refine Finset.sum_congr rfl fun s hs => ?_
    obtain ⟨hc', hk'⟩ := mem_sidesAt.1 (show (s.1, s.2) ∈ _ from hs)
    have : pointOnSide (tri T pos s.1) s.2 (1 / 2) = edgePoint T pos e (1 / 2) := by
      unfold pointOnSide edgePoint
      have h := hM.side_ends hc' s.2
      rw [hk'] at h
      rcases h with h | h <;> rw [h] <;> simp only [tri, Prod.fst_swap, Prod.snd_swap]
      ext i
      simp only [Pi.add_apply, Pi.smul_apply, Pi.sub_apply, smul_eq_mul]
      ring
    dsimp only
    rw [this]
  unfold edgeJumpTerm
  rw [h1, h2, hj]
  simp only [List.zip_cons_cons, List.zip_nil_right, List.map_cons, List.map_nil, List.sum_cons, List.sum_nil, add_zero,
    List.getD_cons_zero]
  field_simp

/-- The outward normal of a cell, by means of the edge. -/
theorem outward_edge {T : Topo} (hM : TriaMesh T geo pos) {c : ℕ} (hc : c < T.numCells) (k : Fin 3) :
    outward (tri T pos c) k = (Real.sign (sideSign T pos (sideOf T c k) (c, k)) / edgeLength T pos (sideOf T c k)) •
      ![(pos (T.edge (sideOf T c k)).2 - pos (T.edge (sideOf T c k)).1) 1, -(pos (T.edge (sideOf T c k)).2 - pos (T.edge (sideOf T c k)).1) 0] := by
  have hs := area2_shift (tri T pos c) k
  rw [edgeLength_side hM hc k]
  unfold outward tangent
  rw [← hs]
  unfold sideSign
  rcases hM.side_ends hc k with h | h
  · rw [h]
    ext i
    fin_cases i <;> simp [tri]
    ring
  · rw [h]
    have : det2 (pos (corner T c k) - pos (corner T c (k + 1))) (pos (corner T c (k + 2)) - pos (corner T c (k + 1))) =
        -det2 (tri T pos c (k + 1) - tri T pos c k) (tri T pos c (k + 2) - tri T pos c k) := by
      rw [det2_eq, det2_eq]
      simp only [tri, Pi.sub_apply]
      ring
    simp only [Prod.fst_swap, Prod.snd_swap]
    rw [this, Real.sign_neg]
    ext i
    fin_cases i <;> simp [tri] <;> ring

theorem frobSq_vecMulVec (v n : Vec ℝ 2) : frobSq (Matrix.vecMulVec v n) = dot v v * dot n n := by
  unfold frobSq
  simp only [Fin.sum_univ_two, Matrix.vecMulVec_apply, dot2]
  ring

theorem outward_unit {T : Topo} (hM : TriaMesh T geo pos) {c : ℕ} (hc : c < T.numCells) (k : Fin 3) :
    dot (outward (tri T pos c) k) (outward (tri T pos c) k) = 1 := by
  rw [← outward_normalAt]
  exact (isOutward_normalAt (hM.regular c hc) k).unit

/-- The normals of the two cells at an edge are opposite. -/
theorem outward_opposite {T : Topo} (hM : TriaMesh T geo pos) (hopp : OppositeSides T pos) {e : ℕ} (he : e < T.numEdges) {s s' : ℕ × Fin 3}
    (hs : s ∈ sidesAt T e) (hs' : s' ∈ sidesAt T e) (hne : s ≠ s') :
    outward (tri T pos s'.1) s'.2 = -outward (tri T pos s.1) s.2 := by
  obtain ⟨a, b⟩ := mem_sidesAt.1 (show (s.1, s.2) ∈ _ from hs)
  obtain ⟨a', b'⟩ := mem_sidesAt.1 (show (s'.1, s'.2) ∈ _ from hs')
  have h0 := sign_add_of_mul_neg (hopp e he s hs s' hs' hne)
  rw [outward_edge hM a, outward_edge hM a', b, b', ← neg_smul, ← neg_div]
  congr 2
  linarith

end Ipdg

theorem Ipdg.fold_none {α β : Type} {g : β → α → Option β} {a : α} (hg : ∀ b, g b a = none) : ∀ (l : List α) (b : β), a ∈ l → l.foldlM g b = none := by
  intro l
  induction l with
  | nil => intro _ h; simp at h
  | cons x l ih =>
    intro b h
    rw [List.foldlM_cons]
    rcases List.mem_cons.1 h with rfl | h
    · rw [hg]; rfl
    · cases g b x with
      | none => rfl
      | some b' => exact ih b' h

/-! ### The jump -/

/-- **C112**: between two cells `‖⟦f ⊗ n⟧‖²` is the squared length of the difference of the values on both sides. -/
theorem C112_jump {T : Topo} (hM : TriaMesh T geo pos) (hopp : OppositeSides T pos) {e : ℕ} (he : e < T.numEdges) {s s' : ℕ × Fin 3}
    (hs : sidesAt T e = {s, s'}) (hne : s ≠ s') (F : ℕ → Vec ℝ 2 → Vec ℝ 2) (y : ℕ × Fin 3 → Vec ℝ 2) :
    frobSq (jumpOf T pos F e y) = dot (F s.1 (y s) - F s'.1 (y s')) (F s.1 (y s) - F s'.1 (y s')) := by
  have h1 : s ∈ sidesAt T e := by rw [hs]; simp
  have h2 : s' ∈ sidesAt T e := by rw [hs]; simp
  have hu := outward_unit hM (mem_sidesAt.1 (show (s.1, s.2) ∈ _ from h1)).1 s.2
  unfold jumpOf
  rw [hs, Finset.sum_pair hne, outward_opposite hM hopp he h1 h2 hne, Matrix.vecMulVec_neg, ← sub_eq_add_neg, ← Matrix.sub_vecMulVec,
    frobSq_vecMulVec, hu, mul_one]

/-- On the boundary it is the squared length of the value. -/
theorem C112_jump_boundary {T : Topo} (hM : TriaMesh T geo pos) {e : ℕ} {s : ℕ × Fin 3}
    (hs : sidesAt T e = {s}) (F : ℕ → Vec ℝ 2 → Vec ℝ 2) (y : ℕ × Fin 3 → Vec ℝ 2) :
    frobSq (jumpOf T pos F e y) = dot (F s.1 (y s)) (F s.1 (y s)) := by
  have hu := outward_unit hM (mem_sidesAt.1 (show (s.1, s.2) ∈ sidesAt T e by rw [hs]; simp)).1 s.2
  unfold jumpOf
  rw [hs, Finset.sum_singleton, frobSq_vecMulVec, hu, mul_one]

/-! ### The norms -/

section
variable (hM : TriaMesh m.topo geo pos) (hne : m.topo.numCells ≠ 0) (sel : Ent → Option (QuadRule ℝ)) (qc : ℕ → QuadRule ℝ)
  (hqc : ∀ c < m.topo.numCells, sel (0, c) = some (qc c) ∧ (qc c).ref = .tria ∧ (qc c).WellFormed ∧ (qc c).points ≠ [] ∧
    ∀ w ∈ (qc c).weights, 0 ≤ w)
include hM hne hqc

/-- **C112**: `L2norm` returns the square root of `∑ ∫ ‖f‖²`, computed with the quadrature rules of the selector, for functions
with values in vectors, or in matrices whose size is not fixed at compile time. -/
theorem C112_l2 (t : EigenTy) (hv : t.Fixed → (t.cols = some 1 ∧ t.rows ≠ some 0) ∨ (t.rows = some 1 ∧ t.cols ≠ some 0))
    (f : MeshFn ℝ (EigenVal ℝ)) {r s : ℕ} (F : ℕ → Vec ℝ 2 → Matrix (Fin r) (Fin s) ℝ)
    (hf : ∀ c < m.topo.numCells, ∃ u, f (0, c) (qc c).points = some u ∧ t.All u ∧
      Values (qc c).points.length u fun i => F c (triPoint (tri m.topo pos c) ((qc c).points.getD i []))) :
    l2Norm m geo t f sel = some (Real.sqrt (l2Sq m.topo pos qc F)) := by
  unfold l2Norm
  rw [integrateCells_eq hM hne (fun c hc => ⟨(hqc c hc).1, (hqc c hc).2.1, (hqc c hc).2.2.1, (hqc c hc).2.2.2.1⟩) (g := fun c x => frobSq (F c x))
    fun c hc => squaredNorm_cells hv (hqc c hc).2.2.2.1 (hf c hc), Option.bind_some]
  exact sqrtOf_nonneg (Finset.sum_nonneg fun c hc =>
    cellQuad_nonneg (hqc c (Finset.mem_range.1 hc)).2.2.2.2 (fun _ => frobSq_nonneg _) c)

variable (hman : Manifold m.topo) (f : MeshFn ℝ (Vec ℝ 2)) (F : ℕ → Vec ℝ 2 → Vec ℝ 2)
  (hf : ∀ c < m.topo.numCells, ∀ pts, (∀ x ∈ pts, x.length = 2) →
    f (0, c) pts = some (pts.map fun x => F c (triPoint (tri m.topo pos c) x)))
include hman hf

/-- **C112**: the value of `DGnorm` if the rules on the edges have one point, `τ e`: the edges on the boundary do not count, and the function is evaluated at the
point with parameter `τ e` in the direction in which the cell runs through the edge. -/
theorem C112_value (τ ω : ℕ → ℝ) (hqe : ∀ e < m.topo.numEdges, ∃ qr, sel (1, e) = some qr ∧ qr.points = [[τ e]] ∧ qr.weights = [ω e])
    (hω : ∀ e < m.topo.numEdges, 0 ≤ ω e) (t : EigenTy)
    (hv : t.Fixed → (t.cols = some 1 ∧ t.rows ≠ some 0) ∨ (t.rows = some 1 ∧ t.cols ≠ some 0))
    (fGrad : MeshFn ℝ (EigenVal ℝ)) {r s : ℕ} (G : ℕ → Vec ℝ 2 → Matrix (Fin r) (Fin s) ℝ)
    (hg : ∀ c < m.topo.numCells, ∃ u, fGrad (0, c) (qc c).points = some u ∧ t.All u ∧
      Values (qc c).points.length u fun i => G c (triPoint (tri m.topo pos c) ((qc c).points.getD i []))) :
    dgNorm m geo f t fGrad sel = some (Real.sqrt (l2Sq m.topo pos qc G + ∑ e ∈ innerEdges m.topo,
      ω e * frobSq (jumpOf m.topo pos F e fun s => pointOnSide (tri m.topo pos s.1) s.2 (τ e)))) := by
  rw [dgNorm_eq hM hman hqe hf (integrateCells_eq hM hne
    (fun c hc => ⟨(hqc c hc).1, (hqc c hc).2.1, (hqc c hc).2.2.1, (hqc c hc).2.2.2.1⟩) (g := fun c x => frobSq (G c x))
    fun c hc => squaredNorm_cells hv (hqc c hc).2.2.2.1 (hg c hc))]
  refine sqrtOf_nonneg (add_nonneg (Finset.sum_nonneg fun c hc =>
    cellQuad_nonneg (hqc c (Finset.mem_range.1 hc)).2.2.2.2 (fun _ => frobSq_nonneg _) c)
    (Finset.sum_nonneg fun e he => mul_nonneg (hω e ?_) (frobSq_nonneg _)))
  exact Finset.mem_range.1 (Finset.mem_sdiff.1 he).1

/-- **C112**, partial: if the rules on the edges are midpoint rules, and the gradients are not matrices whose size is fixed at compile time, then `DGnorm` returns the
square root of `∑ ∫ ‖∇f‖² + ∑ 1/|e| ∫ ‖⟦f ⊗ n⟧‖²`, where the second sum is over the edges **inside** the domain.
Missing: the edges on the boundary (`C112_boundary_not`), gradients of type `Eigen::Matrix2d` (`C112_gradient_not`), other rules
(`C112_points_not`, `C112_shift`). -/
theorem C112_dg_partial (qe : ℕ → QuadRule ℝ) (hqe : ∀ e < m.topo.numEdges, sel (1, e) = some (qe e) ∧ (qe e).points = [[1 / 2]] ∧
      ∃ w, 0 ≤ w ∧ (qe e).weights = [w]) (t : EigenTy)
    (hv : t.Fixed → (t.cols = some 1 ∧ t.rows ≠ some 0) ∨ (t.rows = some 1 ∧ t.cols ≠ some 0))
    (fGrad : MeshFn ℝ (EigenVal ℝ)) {r s : ℕ} (G : ℕ → Vec ℝ 2 → Matrix (Fin r) (Fin s) ℝ)
    (hg : ∀ c < m.topo.numCells, ∃ u, fGrad (0, c) (qc c).points = some u ∧ t.All u ∧
      Values (qc c).points.length u fun i => G c (triPoint (tri m.topo pos c) ((qc c).points.getD i []))) :
    dgNorm m geo f t fGrad sel = some (Real.sqrt (dgSq m.topo pos qc qe F G (innerEdges m.topo))) := by
  have hw : ∀ e < m.topo.numEdges, (qe e).weights = [(qe e).weights.getD 0 0] ∧ 0 ≤ (qe e).weights.getD 0 0 := by
    intro e he
    obtain ⟨-, -, w, h0, h1⟩ := hqe e he
    rw [h1]
    exact ⟨rfl, h0⟩
  rw [C112_value hM hne sel qc hqc hman f F hf (fun _ => 1 / 2) (fun e => (qe e).weights.getD 0 0)
    (fun e he => ⟨qe e, (hqe e he).1, (hqe e he).2.1, (hw e he).1⟩) (fun e he => (hw e he).2) t hv fGrad G hg]
  congr 3
  refine Finset.sum_congr rfl fun e he => ?_
  have he' := Finset.mem_range.1 (Finset.mem_sdiff.1 he).1
  exact (edgeJumpTerm_one hM hman (hqe e he').2.1 (hw e he').1 F he').symm

/-- **C112**, negative: if the gradients are matrices whose size, at least two times two, is fixed at compile time (`Eigen::Matrix2d` in all programs of the project), they do
not count at all. -/
theorem C112_gradient_not (qe : ℕ → QuadRule ℝ) (hqe : ∀ e < m.topo.numEdges, sel (1, e) = some (qe e) ∧ (qe e).points = [[1 / 2]] ∧
      ∃ w, 0 ≤ w ∧ (qe e).weights = [w]) (rows cols : ℕ) (hr : 2 ≤ rows) (hc : 2 ≤ cols) (o : Bool)
    (fGrad : MeshFn ℝ (EigenVal ℝ))
    (hg : ∀ c < m.topo.numCells, ∃ u, fGrad (0, c) (qc c).points = some u ∧ u.length = (qc c).points.length) :
    dgNorm m geo f ⟨some rows, some cols, o⟩ fGrad sel = some (Real.sqrt (∑ e ∈ innerEdges m.topo, edgeJumpTerm m.topo pos (qe e) F e)) := by
  have hw : ∀ e < m.topo.numEdges, (qe e).weights = [(qe e).weights.getD 0 0] ∧ 0 ≤ (qe e).weights.getD 0 0 := by
    intro e he
    obtain ⟨-, -, w, h0, h1⟩ := hqe e he
    rw [h1]
    exact ⟨rfl, h0⟩
  have hz : integrateCells m geo (MeshFn.unary (squaredNormMatrix ⟨some rows, some cols, o⟩) fGrad) sel = some 0 := by
    rw [integrateCells_eq hM hne (fun c hc => ⟨(hqc c hc).1, (hqc c hc).2.1, (hqc c hc).2.2.1, (hqc c hc).2.2.2.1⟩) (g := fun _ _ => 0)]
    · simp [cellQuad]
    · intro c hc'
      obtain ⟨u, h1, h2⟩ := hg c hc'
      rw [C72_squaredNorm_matrix rows cols hr hc o fGrad (0, c) _ u h1, h2, List.map_const']
  have hpos : ∀ e ∈ innerEdges m.topo, (qe e).weights.getD 0 0 *
      frobSq (jumpOf m.topo pos F e fun s => pointOnSide (tri m.topo pos s.1) s.2 (1 / 2)) = edgeJumpTerm m.topo pos (qe e) F e := by
    intro e he
    have he' := Finset.mem_range.1 (Finset.mem_sdiff.1 he).1
    exact (edgeJumpTerm_one hM hman (hqe e he').2.1 (hw e he').1 F he').symm
  rw [dgNorm_eq hM hman (τ := fun _ => 1 / 2) (ω := fun e => (qe e).weights.getD 0 0)
    (fun e he => ⟨qe e, (hqe e he).1, (hqe e he).2.1, (hw e he).1⟩) hf hz, zero_add, Finset.sum_congr rfl hpos]
  refine sqrtOf_nonneg (Finset.sum_nonneg fun e he => ?_)
  rw [← hpos e he]
  exact mul_nonneg (hw e (Finset.mem_range.1 (Finset.mem_sdiff.1 he).1)).2 (frobSq_nonneg _)

/-- **C112**, negative: the edges on the boundary do not count.  For a constant function `v ≠ 0` the result is zero on every mesh with a boundary,
the sum over all edges is positive. -/
theorem C112_boundary_not (hopp : OppositeSides m.topo pos) (hbd : (bdEdges m.topo).Nonempty) (qe : ℕ → QuadRule ℝ)
    (hqe : ∀ e < m.topo.numEdges, sel (1, e) = some (qe e) ∧ (qe e).points = [[1 / 2]] ∧ ∃ w, 0 < w ∧ (qe e).weights = [w])
    (v : Vec ℝ 2) (hF : ∀ c x, F c x = v) (hv : v ≠ 0) :
    dgNorm m geo f ⟨some 2, some 2, false⟩ (MeshFn.const ⟨2, 2, false, [0, 0, 0, 0]⟩) sel = some 0 ∧
      0 < dgSq m.topo pos qc qe F (fun _ _ => (0 : Matrix (Fin 2) (Fin 2) ℝ)) (range m.topo.numEdges) := by
  classical
  have hterm : ∀ e < m.topo.numEdges, ∃ w, 0 < w ∧ edgeJumpTerm m.topo pos (qe e) F e = w * if m.topo.OnBoundary e then dot v v else 0 := by
    intro e he
    obtain ⟨-, h1, w, hw, h2⟩ := hqe e he
    refine ⟨w, hw, ?_⟩
    rw [edgeJumpTerm_one hM hman h1 h2 F he]
    congr 1
    have h3 := hman e he
    by_cases hb : m.topo.OnBoundary e
    · obtain ⟨s, hs⟩ := Finset.card_eq_one.1 ((onBoundary_iff hM e).1 hb)
      rw [C112_jump_boundary hM hs, hF, if_pos hb]
    · have : (sidesAt m.topo e).card = 2 := by
        have h6 : (sidesAt m.topo e).card ≠ 1 := fun h => hb ((onBoundary_iff hM e).2 h)
        omega
      obtain ⟨s, s', h4, h5⟩ := Finset.card_eq_two.1 this
      rw [C112_jump hM hopp he h5 h4, hF, hF, sub_self, if_neg hb, dot2]
      simp
  have hin : ∀ e ∈ innerEdges m.topo, e < m.topo.numEdges ∧ ¬ m.topo.OnBoundary e := by
    intro e he
    have := Finset.mem_sdiff.1 he
    have he' := Finset.mem_range.1 this.1
    exact ⟨he', fun h => this.2 (mem_bdEdges.2 ⟨he', h⟩)⟩
  constructor
  · rw [C112_gradient_not hM hne sel qc hqc hman f F hf qe (fun e he => ⟨(hqe e he).1, (hqe e he).2.1, by
      obtain ⟨-, -, w, h1, h2⟩ := hqe e he
      exact ⟨w, h1.le, h2⟩⟩) 2 2 le_rfl le_rfl false _ fun c _ => ⟨_, rfl, by simp⟩, Finset.sum_eq_zero, Real.sqrt_zero]
    intro e he
    obtain ⟨w, -, h⟩ := hterm e (hin e he).1
    rw [h, if_neg (hin e he).2, mul_zero]
  · have hz : l2Sq m.topo pos qc (fun _ _ => (0 : Matrix (Fin 2) (Fin 2) ℝ)) = 0 := by
      simp [l2Sq, cellQuad, frobSq]
    have hvv : 0 < dot v v := by
      rw [dot2]
      by_contra h
      apply hv
      have h0 := mul_self_nonneg (v 0)
      have h1 := mul_self_nonneg (v 1)
      ext i
      fin_cases i
      · exact mul_self_eq_zero.1 (le_antisymm (by change v 0 * v 0 ≤ 0; linarith) h0)
      · exact mul_self_eq_zero.1 (le_antisymm (by change v 1 * v 1 ≤ 0; linarith) h1)
    unfold dgSq
    rw [hz, zero_add]
    obtain ⟨e0, he0⟩ := hbd
    have hb := mem_bdEdges.1 he0
    refine Finset.sum_pos' (fun e he => ?_) ⟨e0, Finset.mem_range.2 hb.1, ?_⟩
    · obtain ⟨w, hw, h⟩ := hterm e (Finset.mem_range.1 he)
      rw [h]
      exact mul_nonneg hw.le (by split <;> [exact hvv.le; exact le_rfl])
    · obtain ⟨w, hw, h⟩ := hterm e0 hb.1
      rw [h, if_pos hb.2]
      exact mul_pos hw hvv

end

/-- **C112**, negative: `DGnorm` fails if the rule on some side of a cell has no point, or more than one. -/
theorem C112_points_not (hM : TriaMesh m.topo geo pos) (sel : Ent → Option (QuadRule ℝ)) (f : MeshFn ℝ (Vec ℝ 2)) (t : EigenTy)
    (fGrad : MeshFn ℝ (EigenVal ℝ)) (c : ℕ) (hc : c < m.topo.numCells) (k : Fin 3)
    (hq : ∀ qr, sel (1, sideOf m.topo c k) = some qr → qr.points.length ≠ 1) : dgNorm m geo f t fGrad sel = none := by
  have hcell : ∀ ev, cellJumps m geo f sel ev c = none := by
    intro ev
    have hedges : m.topo.subEntities (0, c) 1 = some [(1, sideOf m.topo c 0), (1, sideOf m.topo c 1), (1, sideOf m.topo c 2)] := by
      show some ((m.topo.cell c).edges.map fun i => (1, i)) = _
      rw [sideOf_eq (hM.edges_len hc)]
      rfl
    unfold cellJumps
    rw [hedges, Option.bind_some, hM.cell c hc, Option.bind_some]
    cases computeOutwardNormals (.triaO1 (pos (corner m.topo c 0)) (pos (corner m.topo c 1)) (pos (corner m.topo c 2))) with
    | none => rfl
    | some n =>
      rw [Option.bind_some]
      refine fold_none (a := k) (fun ev => ?_) _ _ (by fin_cases k <;> simp)
      rw [show ([(1, sideOf m.topo c 0), (1, sideOf m.topo c 1), (1, sideOf m.topo c 2)] : List Ent)[k.val]? =
        some (1, sideOf m.topo c k) by fin_cases k <;> rfl, Option.bind_some]
      cases (m.topo.cell c).ori[k.val]? with
      | none => rfl
      | some b =>
        rw [Option.bind_some]
        cases hs : sel (1, sideOf m.topo c k) with
        | none => rfl
        | some qr =>
          have := hq qr hs
          rw [Option.bind_some, show sidePoints k qr = none from ?_]
          · rfl
          · unfold sidePoints
            split
            · rename_i h
              rw [h] at this
              exact absurd rfl this
            · rfl
  unfold dgNorm
  rw [Option.bind_eq_none_iff]
  intro a _
  rw [Option.bind_eq_none_iff]
  intro bd _
  rw [Option.bind_eq_none_iff]
  intro ev0 _
  rw [fold_none hcell _ _ (List.mem_range.2 hc)]
  rfl

/-- If the only point of the rule is not the midpoint and the cells run through an edge in opposite directions, the values on both sides are taken at different points: the
continuous function `f(x) = x` has jumps. -/
theorem C112_shift {T : Topo} (hM : TriaMesh T geo pos) (hopp : OppositeSides T pos) {e : ℕ} (he : e < T.numEdges) {s s' : ℕ × Fin 3}
    (hs : sidesAt T e = {s, s'}) (hne : s ≠ s') (h1 : T.edge e = (corner T s.1 s.2, corner T s.1 (s.2 + 1)))
    (h2 : T.edge e = (corner T s'.1 (s'.2 + 1), corner T s'.1 s'.2)) (τ : ℝ) :
    frobSq (jumpOf T pos (fun _ x => x) e fun s => pointOnSide (tri T pos s.1) s.2 τ) = (2 * τ - 1) ^ 2 * edgeLength T pos e ^ 2 := by
  rw [C112_jump hM hopp he hs hne, edgeLength, Real.sq_sqrt (by rw [dot2]; exact add_nonneg (mul_self_nonneg _) (mul_self_nonneg _))]
  have e1 : pointOnSide (tri T pos s.1) s.2 τ = edgePoint T pos e τ := by
    unfold pointOnSide edgePoint
    rw [h1]
    rfl
  have e2 : pointOnSide (tri T pos s'.1) s'.2 τ = edgePoint T pos e (1 - τ) := by
    unfold pointOnSide edgePoint
    rw [h2]
    ext i
    simp only [tri, Pi.add_apply, Pi.smul_apply, Pi.sub_apply, smul_eq_mul]
    ring
  rw [e1, e2]
  unfold edgePoint
  simp only [dot2, Pi.add_apply, Pi.smul_apply, Pi.sub_apply, smul_eq_mul]
  ring

/-! ### Examples -/

namespace Ipdg

/-- One point in the middle of every triangle and edge, as with `make_QuadRule(e.RefEl(), 0)`. -/
noncomputable def midRules (e : Ent) : Option (QuadRule ℝ) :=
  if e.1 = 0 then some ⟨.tria, 1, [[1 / 3, 1 / 3]], [1 / 2]⟩ else some ⟨.segment, 1, [[1 / 2]], [1]⟩

theorem stokes_inner : innerEdges stokesTopo = {4, 5, 6, 7} := by
  unfold innerEdges
  rw [stokes_bdEdges]
  decide

/-- The velocity `(c, 0)` on cell `c`. -/
noncomputable def stepVelocity : MeshFn ℝ (Vec ℝ 2) := fun e pts => some (pts.map fun _ => ![(e.2 : ℝ), 0])

theorem step_jumps : (∑ e ∈ innerEdges stokesTopo, edgeJumpTerm stokesTopo stokesPos ⟨.segment, 1, [[1 / 2]], [1]⟩ (fun c _ => ![(c : ℝ), 0]) e) = 12 := by
  have h : ∀ e s s', e < 8 → sidesAt stokesTopo e = {s, s'} → s ≠ s' →
      edgeJumpTerm stokesTopo stokesPos ⟨.segment, 1, [[1 / 2]], [1]⟩ (fun c _ => ![(c : ℝ), 0]) e = ((s.1 : ℝ) - s'.1) ^ 2 := by
    intro e s s' he hs hne
    rw [edgeJumpTerm_one stokesMesh stokes_manifold rfl rfl _ he, C112_jump stokesMesh stokes_opposite he hs hne, dot2]
    simp only [Pi.sub_apply, Matrix.cons_val_zero, Matrix.cons_val_one]
    ring
  rw [stokes_inner, Finset.sum_insert (by decide), Finset.sum_insert (by decide), Finset.sum_insert (by decide), Finset.sum_singleton,
    h 4 (0, 2) (3, 1) (by decide) (by decide) (by decide), h 5 (0, 1) (1, 2) (by decide) (by decide) (by decide),
    h 6 (1, 1) (2, 2) (by decide) (by decide) (by decide), h 7 (2, 1) (3, 0) (by decide) (by decide) (by decide)]
  norm_num

theorem midRules_cells : ∀ c < stokesTopo.numCells, midRules (0, c) = some ⟨.tria, 1, [[1 / 3, 1 / 3]], [1 / 2]⟩ ∧ RefEl.tria = .tria ∧
    (⟨.tria, 1, [[1 / 3, 1 / 3]], [1 / 2]⟩ : QuadRule ℝ).WellFormed ∧ ([[1 / 3, 1 / 3]] : List (List ℝ)) ≠ [] ∧
    ∀ w ∈ ([1 / 2] : List ℝ), 0 ≤ w :=
  fun c _ => ⟨rfl, rfl, by simp [QuadRule.WellFormed, RefEl.dimension], by simp, by simp⟩

end Ipdg

/-- Four triangles, velocity `(c, 0)` on cell `c`, gradient with a single entry `1`: the norm is `4` if the gradient has the type `Eigen::MatrixXd`, and the square root of `12` if it has
the type `Eigen::Matrix2d`. -/
example : dgNorm ⟨0, stokesTopo⟩ stokesGeo stepVelocity ⟨none, none, false⟩ (MeshFn.const ⟨2, 2, false, [1, 0, 0, 0]⟩) midRules = some 4 ∧
    dgNorm ⟨0, stokesTopo⟩ stokesGeo stepVelocity ⟨some 2, some 2, false⟩ (MeshFn.const ⟨2, 2, false, [1, 0, 0, 0]⟩) midRules =
      some (Real.sqrt 12) := by
  have hf : ∀ c < stokesTopo.numCells, ∀ pts : List (List ℝ), (∀ x ∈ pts, x.length = 2) → stepVelocity (0, c) pts =
      some (pts.map fun x => (fun c _ => ![(c : ℝ), 0] : ℕ → Vec ℝ 2 → Vec ℝ 2) c (triPoint (tri stokesTopo stokesPos c) x)) :=
    fun c _ pts _ => rfl
  have hqe : ∀ e < stokesTopo.numEdges, midRules (1, e) = some ⟨.segment, 1, [[1 / 2]], [1]⟩ ∧ ([[1 / 2]] : List (List ℝ)) = [[1 / 2]] ∧
      ∃ w : ℝ, 0 ≤ w ∧ [1] = [w] := fun e _ => ⟨rfl, rfl, 1, by norm_num, rfl⟩
  constructor
  · rw [C112_dg_partial (m := ⟨0, stokesTopo⟩) stokesMesh (by decide) midRules (fun _ => ⟨.tria, 1, [[1 / 3, 1 / 3]], [1 / 2]⟩) midRules_cells
      stokes_manifold stepVelocity (fun c _ => ![(c : ℝ), 0]) hf (fun _ => ⟨.segment, 1, [[1 / 2]], [1]⟩) hqe ⟨none, none, false⟩
      (fun h => absurd rfl h.1) _ (fun _ _ => (!![1, 0; 0, 0] : Matrix (Fin 2) (Fin 2) ℝ)) ?_]
    · unfold dgSq
      rw [step_jumps]
      have hl : l2Sq stokesTopo stokesPos (fun _ => ⟨.tria, 1, [[1 / 3, 1 / 3]], [1 / 2]⟩)
          (fun _ _ => (!![1, 0; 0, 0] : Matrix (Fin 2) (Fin 2) ℝ)) = 4 := by
        obtain ⟨h0, h1, h2, h3⟩ := stokes_area
        have hn : stokesTopo.numCells = 4 := rfl
        simp only [l2Sq, hn, Finset.sum_range_succ, Finset.sum_range_zero, cellQuad, frobSq, Fin.sum_univ_two, List.zip_cons_cons,
          List.zip_nil_right, List.map_cons, List.map_nil, List.sum_cons, List.sum_nil, h0, h1, h2, h3]
        simp
        norm_num
      rw [hl, show (4 + 12 : ℝ) = 4 ^ 2 by norm_num, Real.sqrt_sq (by norm_num)]
    · intro c _
      refine ⟨_, rfl, ?_, rfl, ?_⟩
      · intro a ha
        rw [List.eq_of_mem_replicate ha]
        exact ⟨by simp, by simp, rfl⟩
      · intro i hi
        refine ⟨⟨2, 2, false, [1, 0, 0, 0]⟩, ?_, rfl, rfl, rfl, ?_⟩
        · rw [List.getElem?_replicate]
          exact if_pos hi
        · intro a b
          fin_cases a <;> fin_cases b <;> rfl
  · rw [C112_gradient_not (m := ⟨0, stokesTopo⟩) stokesMesh (by decide) midRules (fun _ => ⟨.tria, 1, [[1 / 3, 1 / 3]], [1 / 2]⟩) midRules_cells
      stokes_manifold stepVelocity (fun c _ => ![(c : ℝ), 0]) hf (fun _ => ⟨.segment, 1, [[1 / 2]], [1]⟩) hqe 2 2 le_rfl le_rfl false _
      fun c _ => ⟨_, rfl, by simp⟩, step_jumps]

/-- The constant velocity `(3, 4)` on a square of area four. -/
example : l2Norm ⟨0, stokesTopo⟩ stokesGeo ⟨some 2, some 1, false⟩ (MeshFn.const ⟨2, 1, false, [3, 4]⟩) midRules = some 10 := by
  rw [C112_l2 (m := ⟨0, stokesTopo⟩) stokesMesh (by decide) midRules (fun _ => ⟨.tria, 1, [[1 / 3, 1 / 3]], [1 / 2]⟩) midRules_cells
    ⟨some 2, some 1, false⟩ (fun _ => Or.inl ⟨rfl, by decide⟩) _ (fun _ _ => (!![3; 4] : Matrix (Fin 2) (Fin 1) ℝ)) ?_]
  · have hl : l2Sq stokesTopo stokesPos (fun _ => ⟨.tria, 1, [[1 / 3, 1 / 3]], [1 / 2]⟩)
        (fun _ _ => (!![3; 4] : Matrix (Fin 2) (Fin 1) ℝ)) = 100 := by
      obtain ⟨h0, h1, h2, h3⟩ := stokes_area
      have hn : stokesTopo.numCells = 4 := rfl
      simp only [l2Sq, hn, Finset.sum_range_succ, Finset.sum_range_zero, cellQuad, frobSq, Fin.sum_univ_two, List.zip_cons_cons,
        List.zip_nil_right, List.map_cons, List.map_nil, List.sum_cons, List.sum_nil, h0, h1, h2, h3]
      simp
      norm_num
    rw [hl, show (100 : ℝ) = 10 ^ 2 by norm_num, Real.sqrt_sq (by norm_num)]
  · intro c _
    refine ⟨_, rfl, ?_, rfl, ?_⟩
    · intro a ha
      rw [List.eq_of_mem_replicate ha]
      exact ⟨by simp, by simp, rfl⟩
    · intro i hi
      refine ⟨⟨2, 1, false, [3, 4]⟩, ?_, rfl, rfl, rfl, ?_⟩
      · rw [List.getElem?_replicate]
        exact if_pos hi
      · intro a b
        fin_cases a <;> fin_cases b <;> rfl

/-- The hypotheses of the theorems on edges are met, as are those of `C112_boundary_not`. -/
example : (bdEdges stokesTopo).Nonempty ∧ OppositeSides stokesTopo stokesPos ∧ sidesAt stokesTopo 5 = {(0, 1), (1, 2)} ∧
    sidesAt stokesTopo 0 = {(0, 0)} := ⟨⟨0, by rw [stokes_bdEdges]; simp⟩, stokes_opposite, by decide, by decide⟩

/-- On the edge between the cells 0 and 1 the hypotheses of `C112_shift` are met. -/
example (τ : ℝ) : frobSq (jumpOf stokesTopo stokesPos (fun _ x => x) 5 fun s => pointOnSide (tri stokesTopo stokesPos s.1) s.2 τ) =
    (2 * τ - 1) ^ 2 * edgeLength stokesTopo stokesPos 5 ^ 2 :=
  C112_shift stokesMesh stokes_opposite (e := 5) (by decide) (s := (0, 1)) (s' := (1, 2)) (by decide) (by decide) (by decide) (by decide) τ

end Verif
