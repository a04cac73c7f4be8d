import Verif.Spec.LocComp
import Verif.Lemmas.Gram
import Verif.Lemmas.LinFEQuad
import Verif.Lemmas.FeTools
import Verif.Props.Geometry

namespace Verif
open Geo Finset

theorem foldlM_add {M : Type} [AddCommMonoid M] (step : M → ℕ → Option M) (D : ℕ → M) (n : ℕ)
    (h : ∀ k < n, ∀ m, step m k = some (m + D k)) :
    (List.range n).foldlM step 0 = some (∑ k ∈ range n, D k) := by
  induction n with
  | zero => rfl
  | succ n ih =>
    rw [List.range_succ, List.foldlM_append, ih fun k hk => h k (by omega)]
    simp only [List.foldlM_cons, List.foldlM_nil, Option.bind_eq_bind, Option.bind_some]
    rw [h n (by omega), Finset.sum_range_succ]
    rfl

theorem mapM_eq_map {α β : Type} (f : α → Option β) (F : α → β) (l : List α) (h : ∀ x ∈ l, f x = some (F x)) :
    l.mapM f = some (l.map F) := by
  induction l with
  | nil => rfl
  | cons a l ih =>
    simp [List.mapM_cons, h a (by simp), ih fun x hx => h x (by simp [hx])]

theorem get_map {α β : Type} (l : List α) (F : α → β) {k : ℕ} (hk : k < l.length) (d : α) :
    (l.map F)[k]? = some (F (l.getD k d)) := by
  simp [hk]

theorem get_self {α : Type} (l : List α) {k : ℕ} (hk : k < l.length) (d : α) : l[k]? = some (l.getD k d) := by
  simp [hk]

theorem getD_mem_list {α : Type} (l : List α) {k : ℕ} (hk : k < l.length) (d : α) : l.getD k d ∈ l := by
  simp [hk]

variable {w : ℕ} {g : Geo ℝ w} {fe : RefFE ℝ} {q : QuadRule ℝ} {detJ : List ℝ → ℝ}

theorem Computable.dets (h : Computable g fe q detJ) :
    q.points.mapM g.integrationElement = some (q.points.map detJ) := mapM_eq_map _ _ _ h.metric

theorem Computable.rsf (h : Computable g fe q detJ) :
    q.points.mapM fe.eval = some (q.points.map fun x => (fe.eval x).getD []) :=
  mapM_eq_map _ _ _ fun x hx => by obtain ⟨v, hv, -⟩ := h.shapes x hx; rw [hv]; rfl

theorem Computable.col (h : Computable g fe q detJ) {k : ℕ} (hk : k < q.points.length) :
    ((fe.eval (q.points.getD k [])).getD []).length = fe.num := by
  obtain ⟨v, hv, hl⟩ := h.shapes _ (getD_mem_list _ hk [])
  rw [hv]; exact hl

theorem ComputableGrad.dets (h : ComputableGrad g fe q detJ) :
    q.points.mapM g.integrationElement = some (q.points.map detJ) := mapM_eq_map _ _ _ h.metric

theorem ComputableGrad.grsf (h : ComputableGrad g fe q detJ) :
    q.points.mapM fe.grad = some (q.points.map fun x => (fe.grad x).getD []) :=
  mapM_eq_map _ _ _ fun x hx => by obtain ⟨v, hv, -⟩ := h.grads x hx; rw [hv]; rfl

/-- The transformation matrices of the gradients. -/
theorem ComputableGrad.gramian (h : ComputableGrad g fe q detJ) {x : List ℝ} (hx : x ∈ q.points) :
    ∃ C, g.jacobianInverseGramian x = some C ∧ C.length = 2 ∧ ∀ (d : List ℝ),
      g.pushGrad x d = d.getD 0 0 • C.getD 0 0 + d.getD 1 0 • C.getD 1 0 := by
  obtain ⟨cols, hJ, hr⟩ := h.rank x hx
  have hk : g.kind ≠ .point := by
    intro h0
    have := h.dim
    rw [h0] at this
    simp [RefEl.dimension] at this
  obtain ⟨C, hC, hl, hm⟩ := C38_inverse_gramian g hk x cols hJ (by rw [h.dim]; exact hr)
  refine ⟨C, hC, hl.trans h.dim, fun d => ?_⟩
  have : g.pushGrad x d = (matrix g.kind.dimension C).mulVec fun k => d.getD k.val 0 := by
    rw [hm]
    simp only [pushGrad, hJ, Option.getD_some]
  rw [this]
  have hgen : ∀ n, n = 2 → (matrix n C).mulVec (fun k : Fin n => d.getD k.val 0) =
      d.getD 0 0 • C.getD 0 0 + d.getD 1 0 • C.getD 1 0 := by
    rintro n rfl
    funext i
    simp [Matrix.mulVec, dotProduct, matrix, Fin.sum_univ_two]
    ring
  exact hgen _ h.dim

theorem ComputableGrad.jinvT (h : ComputableGrad g fe q detJ) :
    q.points.mapM g.jacobianInverseGramian =
      some (q.points.map fun x => (g.jacobianInverseGramian x).getD []) :=
  mapM_eq_map _ _ _ fun x hx => by obtain ⟨v, hv, -⟩ := h.gramian hx; rw [hv]; rfl

theorem ComputableGrad.trf (h : ComputableGrad g fe q detJ) {x : List ℝ} (hx : x ∈ q.points) (i : ℕ) :
    trfGrad ((g.jacobianInverseGramian x).getD []) ((fe.grad x).getD []) i = g.pushGrad x (fe.gradAt i x) := by
  obtain ⟨C, hC, -, hp⟩ := h.gramian hx
  rw [hC, hp]
  rfl

theorem ComputableGrad.fit (h : ComputableGrad g fe q detJ) {x : List ℝ} (hx : x ∈ q.points) :
    blocksFit fe.num ((g.jacobianInverseGramian x).getD []) ((fe.grad x).getD []) = true := by
  obtain ⟨C, hC, hl, -⟩ := h.gramian hx
  obtain ⟨v, hv, hn, hd⟩ := h.grads x hx
  rw [hC, hv]
  simp only [Option.getD_some, blocksFit, hl, hn, Bool.and_eq_true, beq_iff_eq, List.all_eq_true]
  exact ⟨⟨trivial, trivial⟩, hd⟩

theorem DiffCoeff.act_eq (a : DiffCoeff w) (v : Vec ℝ w) : a.act v = a.toMatrix.mulVec v := by
  cases a with
  | scalar c => simp [act, toMatrix, Matrix.smul_mulVec]
  | tensor A => rfl

end Verif
