import Verif.Lemmas.DpgElements
import Verif.Lemmas.GalerkinDef
import Verif.Props.LocCompExact
import Verif.Props.DpgLocComp

/-!
# Lemmas: exact integration by the DPG providers
-/

namespace Verif.Dpg
open Verif Geo Finset

variable {w : ℕ}

theorem construct_some {α : Type} {entry : RefEl → Option (Option α)} (h : ∀ r, r = .tria ∨ r = .quad → ∃ o, entry r = some o) :
    (construct entry).isSome := by
  obtain ⟨a, ha⟩ := h .tria (.inl rfl)
  obtain ⟨b, hb⟩ := h .quad (.inr rfl)
  rw [construct, ha, hb]
  rfl

theorem precomp_some {fe : RefFE ℝ} {r : RefEl} {p : ℕ} (h : Regular fe r p) {q : QuadRule ℝ} (hr : q.ref = r) (hw : q.WellFormed) :
    ∃ a, PrecompFE.make fe q = some a := by
  have hl : ∀ x ∈ q.points, x.length = fe.ref.dimension := fun x hx => (hw.1 x hx).trans (by rw [hr, h.ref])
  obtain ⟨l, h1, -⟩ := mapM_of_forall fe.eval (fun _ _ => True) q.points fun x hx => by
    obtain ⟨v, hv, -⟩ := h.evaluates.1 x (hl x hx)
    exact ⟨v, hv, trivial⟩
  obtain ⟨l', h1', -⟩ := mapM_of_forall fe.grad (fun _ _ => True) q.points fun x hx => by
    obtain ⟨v, hv, -⟩ := h.gradCorrect x (hl x hx)
    exact ⟨v, hv, trivial⟩
  exact ⟨_, by rw [PrecompFE.make, h1, Option.bind_some, h1']; rfl⟩

theorem comb_poly {fe : RefFE ℝ} {r : RefEl} {p : ℕ} (hr : r = .tria ∨ r = .quad) (h : Regular fe r p) (c : List ℝ) :
    IsPolyOn r p (comb fe c) := by
  have := combine_poly (fe := fe) (h.ref.symm ▸ hr) h.polynomial fun i => c.getD i.val 0
  rwa [h.ref, h.degree] at this

theorem combGrad_eq {fe : RefFE ℝ} {r : RefEl} {p : ℕ} (h : Regular fe r p) (hd : r.dimension = 2) (c : List ℝ) {k : ℕ} (hk : k < 2)
    {x : List ℝ} (hx : x.length = 2) :
    HasDerivAt (fun t => comb fe c (x.set k t)) ((combGrad fe c x).getD k 0) (x.getD k 0) := by
  have hd' : fe.ref.dimension = 2 := h.ref ▸ hd
  obtain ⟨v, hv, -, hD⟩ := h.gradCorrect x (hx.trans hd'.symm)
  have e : (combGrad fe c x).getD k 0 = ∑ i : Fin fe.num, c.getD i.val 0 * (v.getD i.val []).getD k 0 := by
    rw [combGrad, RefFE.combineGrad]
    have h2 : k = 0 ∨ k = 1 := by omega
    rcases h2 with rfl | rfl <;> simp [RefFE.gradAt, hv]
  rw [e]
  change HasDerivAt (fun t => ∑ i : Fin fe.num, c.getD i.val 0 * fe.shape i.val (x.set k t)) _ _
  refine HasDerivAt.fun_sum fun i _ => HasDerivAt.const_mul _ ?_
  exact (hD i.val i.isLt).2 k (by omega)

theorem combGrad_poly {fe : RefFE ℝ} {r : RefEl} {p : ℕ} (hr : r = .tria ∨ r = .quad) (h : Regular fe r p) (c : List ℝ) {k : ℕ}
    (hk : k < 2) : IsPolyOn r p fun x => (combGrad fe c x).getD k 0 :=
  IsPolyOn.deriv hr (comb_poly hr h c) hk fun _ hx => combGrad_eq h (by rcases hr with rfl | rfl <;> rfl) c hk hx

/-- On affine cells transformed gradients are linear combinations of two fixed vectors. -/
theorem push_const {g : Geo ℝ w} {r : RefEl} (hgk : g.kind = r) (hr : r = .tria ∨ r = .quad) {A B : Vec ℝ w}
    (hJ : g.ConstJacobian A B) : ∃ P Q : Vec ℝ w, ∀ x : List ℝ, x.length = 2 → ∀ d : List ℝ,
      g.pushGrad x d = d.getD 0 0 • P + d.getD 1 0 • Q := by
  have hgen : ∀ (n : ℕ), n = 2 → ∃ P Q : Vec ℝ w, ∀ d : List ℝ,
      (matrix n [A, B] * ((matrix n [A, B]).transpose * matrix n [A, B])⁻¹).mulVec (fun k => d.getD k.val 0) =
        d.getD 0 0 • P + d.getD 1 0 • Q := by
    rintro n rfl
    refine ⟨fun r => (matrix 2 [A, B] * ((matrix 2 [A, B]).transpose * matrix 2 [A, B])⁻¹) r 0,
      fun r => (matrix 2 [A, B] * ((matrix 2 [A, B]).transpose * matrix 2 [A, B])⁻¹) r 1, fun d => ?_⟩
    funext r
    simp only [Matrix.mulVec, dotProduct, Fin.sum_univ_two, Pi.add_apply, Pi.smul_apply, smul_eq_mul]
    simp only [Fin.val_zero, Fin.val_one]
    ring
  obtain ⟨P, Q, h⟩ := hgen g.kind.dimension (by rw [hgk]; rcases hr with rfl | rfl <;> rfl)
  refine ⟨P, Q, fun x hx d => ?_⟩
  rw [← h, pushGrad, hJ x hx]
  rfl

theorem push_poly {g : Geo ℝ w} {r : RefEl} (hgk : g.kind = r) (hr : r = .tria ∨ r = .quad) {A B : Vec ℝ w}
    (hJ : g.ConstJacobian A B) {fe : RefFE ℝ} {p : ℕ} (h : Regular fe r p) (c : List ℝ) (b : Vec ℝ w) :
    IsPolyOn r p fun x => dot b (g.pushGrad x (combGrad fe c x)) := by
  obtain ⟨P, Q, hPQ⟩ := push_const hgk hr hJ
  refine IsPolyOn.congr hr (((combGrad_poly hr h c (k := 0) (by norm_num)).smul hr (dot b P)).add hr
    ((combGrad_poly hr h c (k := 1) (by norm_num)).smul hr (dot b Q))) fun x hx => ?_
  rw [hPQ x hx]
  simp only [dot_eq, dotProduct_add, dotProduct_smul, smul_eq_mul]
  ring

theorem push_poly2 {g : Geo ℝ w} {r : RefEl} (hgk : g.kind = r) (hr : r = .tria ∨ r = .quad) {A B : Vec ℝ w}
    (hJ : g.ConstJacobian A B) {fe fe' : RefFE ℝ} {p p' : ℕ} (h : Regular fe r p) (h' : Regular fe' r p') (c c' : List ℝ)
    (M : Matrix (Fin w) (Fin w) ℝ) : IsPolyOn r (p' + p) fun x =>
      dot (g.pushGrad x (combGrad fe c x)) (M.mulVec (g.pushGrad x (combGrad fe' c' x))) := by
  obtain ⟨P, Q, hPQ⟩ := push_const hgk hr hJ
  have hm := fun k hk2 l hl2 => IsPolyOn.mul hr (combGrad_poly hr h c (k := k) hk2) (combGrad_poly hr h' c' (k := l) hl2)
    (n := p' + p) (by omega)
  refine IsPolyOn.congr hr ((((hm 0 (by norm_num) 0 (by norm_num)).smul hr (dot P (M.mulVec P))).add hr
    ((hm 0 (by norm_num) 1 (by norm_num)).smul hr (dot P (M.mulVec Q)))).add hr
      (((hm 1 (by norm_num) 0 (by norm_num)).smul hr (dot Q (M.mulVec P))).add hr
        ((hm 1 (by norm_num) 1 (by norm_num)).smul hr (dot Q (M.mulVec Q))))) fun x hx => ?_
  rw [hPQ x hx, hPQ x hx, Matrix.mulVec_add, Matrix.mulVec_smul, Matrix.mulVec_smul]
  simp only [dot_eq, add_dotProduct, dotProduct_add, smul_dotProduct, dotProduct_smul, smul_eq_mul]
  ring

theorem polyFn_pow {d a : ℕ} {f : ℝ → ℝ} (hf : PolyFn 1 f) (h : a ≤ d) : PolyFn d fun t => f t ^ a := by
  have : PolyFn a fun t => f t ^ a := by
    induction a with
    | zero => simpa using PolyFn.const 0 1
    | succ a ih =>
      simp only [pow_succ]
      exact (ih (by omega)).mul hf (by omega)
  exact this.mono h

/-- Polynomials on sides of reference cells. -/
theorem side_poly {r : RefEl} (hr : r = .tria ∨ r = .quad) {d : ℕ} {f : List ℝ → ℝ} (hf : IsPolyOn r d f) {s : ℕ}
    (hs : s < r.numNodes) : PolyFn d fun t => f (sidePoint r s t) := by
  have lin : ∀ a b : ℝ, PolyFn 1 fun t => (1 - t) * a + t * b := fun a b =>
    (((PolyFn.const 1 1).sub (PolyFn.id 1 le_rfl)).mul (PolyFn.const 0 a) (by omega)).add
      ((PolyFn.id 1 le_rfl).mul (PolyFn.const 0 b) (by omega))
  rcases hr with rfl | rfl
  · obtain ⟨c, hc⟩ := hf
    have key : ∀ a b a' b' : ℝ, PolyFn d fun t => f [(1 - t) * a + t * b, (1 - t) * a' + t * b'] := by
      intro a b a' b'
      simp only [hc]
      refine PolyFn.sum _ fun i hi => PolyFn.sum _ fun j hj => PolyFn.smul _ ?_
      simp only [mem_range] at hi hj
      exact (polyFn_pow (lin a b) (le_refl i)).mul (polyFn_pow (lin a' b') (le_refl j)) (by omega)
    match s, hs with
    | 0, _ => exact key _ _ _ _
    | 1, _ => exact key _ _ _ _
    | 2, _ => exact key _ _ _ _
  · obtain ⟨c, hc⟩ := hf
    have cst : ∀ a : ℝ, (fun t : ℝ => (1 - t) * a + t * a) = fun _ => a := fun a => by funext t; ring
    have k1 : ∀ a b a' : ℝ, PolyFn d fun t => f [(1 - t) * a + t * b, (1 - t) * a' + t * a'] := by
      intro a b a'
      simp only [hc]
      refine PolyFn.sum _ fun i hi => PolyFn.sum _ fun j hj => PolyFn.smul _ ?_
      simp only [mem_range] at hi hj
      simp only [congrFun (cst a')]
      exact (polyFn_pow (d := d) (lin a b) (by omega)).mul (PolyFn.const 0 _) (by omega)
    have k2 : ∀ a b a' : ℝ, PolyFn d fun t => f [(1 - t) * a' + t * a', (1 - t) * a + t * b] := by
      intro a b a'
      simp only [hc]
      refine PolyFn.sum _ fun i hi => PolyFn.sum _ fun j hj => PolyFn.smul _ ?_
      simp only [mem_range] at hi hj
      simp only [congrFun (cst a')]
      exact (PolyFn.const 0 _).mul (polyFn_pow (d := d) (lin a b) (by omega)) (by omega)
    match s, hs with
    | 0, _ => exact k1 _ _ _
    | 1, _ => exact k2 _ _ _
    | 2, _ => exact k1 _ _ _
    | 3, _ => exact k2 _ _ _

/-- Functions on the reference segment. -/
theorem comb_poly_segment {fe : RefFE ℝ} {p : ℕ} (h : Regular fe .segment p) (c : List ℝ) : PolyFn p fun t => comb fe c [t] := by
  simp only [comb, RefFE.combine]
  refine PolyFn.sum _ fun i _ => PolyFn.smul _ ?_
  have := h.polynomial i.val i.isLt
  rw [h.ref, h.degree] at this
  obtain ⟨c, hc⟩ := this
  simp only [hc]
  exact PolyFn.sum _ fun a ha => PolyFn.smul _ (polyFn_pow (PolyFn.id 1 le_rfl) (by simp only [mem_range] at ha; omega))

/-- The sides of cells with straight sides. -/
theorem straight (g : Geo ℝ 2) (h : g.StrictlyConvex) (s : ℕ) (hs : s < g.kind.numNodes) :
    ∃ p q, g.global (sidePoint g.kind s 0) = some p ∧ g.global (sidePoint g.kind s 1) = some q ∧
      g.sub 1 s = some (.segO1 p q) := by
  match g, h with
  | .triaO1 a b c, h =>
    match s, hs with
    | 0, _ => exact ⟨a, b, by simp [Geo.kind, sidePoint, RefEl.corners, RefEl.numNodes, Geo.global],
        by simp [Geo.kind, sidePoint, RefEl.corners, RefEl.numNodes, Geo.global], rfl⟩
    | 1, _ => exact ⟨b, c, by simp [Geo.kind, sidePoint, RefEl.corners, RefEl.numNodes, Geo.global],
        by simp [Geo.kind, sidePoint, RefEl.corners, RefEl.numNodes, Geo.global], rfl⟩
    | 2, _ => exact ⟨c, a, by simp [Geo.kind, sidePoint, RefEl.corners, RefEl.numNodes, Geo.global],
        by simp [Geo.kind, sidePoint, RefEl.corners, RefEl.numNodes, Geo.global], rfl⟩
  | .quadO1 a b c d, h =>
    match s, hs with
    | 0, _ => exact ⟨a, b, by simp [Geo.kind, sidePoint, RefEl.corners, RefEl.numNodes, Geo.global],
        by simp [Geo.kind, sidePoint, RefEl.corners, RefEl.numNodes, Geo.global], rfl⟩
    | 1, _ => exact ⟨b, c, by simp [Geo.kind, sidePoint, RefEl.corners, RefEl.numNodes, Geo.global],
        by simp [Geo.kind, sidePoint, RefEl.corners, RefEl.numNodes, Geo.global], rfl⟩
    | 2, _ => exact ⟨c, d, by simp [Geo.kind, sidePoint, RefEl.corners, RefEl.numNodes, Geo.global],
        by simp [Geo.kind, sidePoint, RefEl.corners, RefEl.numNodes, Geo.global], rfl⟩
    | 3, _ => exact ⟨d, a, by simp [Geo.kind, sidePoint, RefEl.corners, RefEl.numNodes, Geo.global],
        by simp [Geo.kind, sidePoint, RefEl.corners, RefEl.numNodes, Geo.global], rfl⟩
  | .parallelogram a b c d, h =>
    have hc : c = b + (d - a) := by
      have := h.2
      have : c - (b + (d - a)) = 0 := by rw [← neg_eq_zero, ← this]; abel
      exact sub_eq_zero.mp this
    subst hc
    match s, hs with
    | 0, _ => exact ⟨a, b, by simp [Geo.kind, sidePoint, RefEl.corners, RefEl.numNodes, Geo.global],
        by simp [Geo.kind, sidePoint, RefEl.corners, RefEl.numNodes, Geo.global], rfl⟩
    | 1, _ => exact ⟨b, b + (d - a), by simp [Geo.kind, sidePoint, RefEl.corners, RefEl.numNodes, Geo.global],
        by simp [Geo.kind, sidePoint, RefEl.corners, RefEl.numNodes, Geo.global]; abel, rfl⟩
    | 2, _ => exact ⟨b + (d - a), d, by simp [Geo.kind, sidePoint, RefEl.corners, RefEl.numNodes, Geo.global]; abel,
        by simp [Geo.kind, sidePoint, RefEl.corners, RefEl.numNodes, Geo.global], rfl⟩
    | 3, _ => exact ⟨d, a, by simp [Geo.kind, sidePoint, RefEl.corners, RefEl.numNodes, Geo.global],
        by simp [Geo.kind, sidePoint, RefEl.corners, RefEl.numNodes, Geo.global], rfl⟩

theorem segO1_length (p q : Vec ℝ w) : ∃ ℓ, 0 ≤ ℓ ∧ ℓ ^ 2 = dot (q - p) (q - p) ∧
    ∀ t : List ℝ, t.length = 1 → (Geo.segO1 p q).integrationElement t = some ℓ := by
  have key : ∀ t : List ℝ, t.length = 1 → (Geo.segO1 p q).jacobian t = some [q - p] := by
    intro t ht
    match t, ht with
    | [t], _ => rfl
  have hdet : ((matrix 1 [q - p]).transpose * matrix 1 [q - p]).det = dot (q - p) (q - p) := by
    rw [Matrix.det_fin_one]
    simp [Matrix.mul_apply, matrix, dot]
  obtain ⟨ℓ, -, h0, h2⟩ := C38_integration_element _ [0] _ (key [0] rfl)
  rw [show (Geo.segO1 p q).kind.dimension = 1 from rfl, hdet] at h2
  refine ⟨ℓ, h0, h2, fun t ht => ?_⟩
  obtain ⟨ℓ', h, h0', h2'⟩ := C38_integration_element _ t _ (key t ht)
  rw [show (Geo.segO1 p q).kind.dimension = 1 from rfl, hdet] at h2'
  rw [h]
  congr 1
  exact (pow_left_inj₀ h0' h0 two_ne_zero).mp (h2'.trans h2.symm)

end Verif.Dpg
