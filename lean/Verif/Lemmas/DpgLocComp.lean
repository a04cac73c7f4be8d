import Verif.Spec.DpgLocComp
import Verif.Lemmas.LocCompForm
import Verif.Lemmas.DpgFlow
import Verif.Lemmas.OptList

/-!
# Lemmas on the local computations of the DPG providers
-/

namespace Verif.Dpg
open Verif Geo Finset

variable {w : ℕ}

theorem foldlM_plusEq (step : Dense ℝ → ℕ → Option (Dense ℝ)) (D : ℕ → ℕ → ℕ → ℝ) (r c n : ℕ) (f0 : ℕ → ℕ → ℝ)
    (h : ∀ k < n, ∀ f, step ⟨r, c, f⟩ k = some ⟨r, c, fun i j => f i j + D k i j⟩) :
    (List.range n).foldlM step ⟨r, c, f0⟩ = some ⟨r, c, fun i j => f0 i j + ∑ k ∈ range n, D k i j⟩ := by
  induction n with
  | zero => simp
  | succ n ih =>
    rw [List.range_succ, List.foldlM_append, ih fun k hk => h k (by omega)]
    simp only [List.foldlM_cons, List.foldlM_nil, Option.bind_eq_bind, Option.bind_some]
    rw [h n (by omega)]
    simp only [Finset.sum_range_succ, Option.bind_some, add_assoc]
    rfl

theorem construct_get {α : Type} {entry : RefEl → Option (Option α)} {pre : PreTable α} (h : construct entry = some pre)
    {r : RefEl} (hr : r = .tria ∨ r = .quad) : entry r = some (pre r) := by
  unfold construct at h
  rw [Option.bind_eq_some_iff] at h
  obtain ⟨t, ht, h⟩ := h
  rw [Option.map_eq_some_iff] at h
  obtain ⟨q, hq, rfl⟩ := h
  rcases hr with rfl | rfl
  · exact ht
  · exact hq

theorem make_precomp {fe : RefFE ℝ} {q : QuadRule ℝ} {p : PrecompFE} (h : PrecompFE.make fe q = some p) :
    p.fe = fe ∧ p.qr = q ∧ p.rsf = q.points.map (fun x => (fe.eval x).getD []) ∧
      p.grsf = q.points.map fun x => (fe.grad x).getD [] := by
  have key : ∀ {β : Type} (f : List ℝ → Option (List β)) (l : List (List ℝ)) (R : List (List β)), l.mapM f = some R →
      R = l.map fun x => (f x).getD [] := by
    intro β f l
    induction l with
    | nil => intro R h; cases h; rfl
    | cons a l ih =>
      intro R h
      rw [List.mapM_cons] at h
      simp only [Option.bind_eq_bind, Option.bind_eq_some_iff, Option.pure_def, Option.some.injEq] at h
      obtain ⟨b, hb, R', hR, rfl⟩ := h
      rw [List.map_cons, hb, ← ih R' hR]
      rfl
  unfold PrecompFE.make at h
  rw [Option.bind_eq_some_iff] at h
  obtain ⟨rsf, h1, h⟩ := h
  rw [Option.map_eq_some_iff] at h
  obtain ⟨grsf, h2, rfl⟩ := h
  exact ⟨rfl, rfl, key _ _ _ h1, key _ _ _ h2⟩

theorem cellPair_get {B : QuadBase ℝ} {U V : ProductSpace ℝ} {i j : ℕ} {pre : PreTable (PrecompFE × PrecompFE)}
    (h : construct (cellPair B U V i j) = some pre) {r : RefEl} (hr : r = .tria ∨ r = .quad) {ft fv : RefFE ℝ}
    (hft : U.shapeFunctionLayout r i = some (some ft)) (hfv : V.shapeFunctionLayout r j = some (some fv)) {q : QuadRule ℝ}
    (hq : makeQuadRule B r (ft.degree + fv.degree) = some q) :
    pre r = some (⟨ft, q, q.points.map fun x => (ft.eval x).getD [], q.points.map fun x => (ft.grad x).getD []⟩,
      ⟨fv, q, q.points.map fun x => (fv.eval x).getD [], q.points.map fun x => (fv.grad x).getD []⟩) := by
  have h1 := construct_get h hr
  unfold cellPair at h1
  rw [hft, hfv] at h1
  simp only [Option.bind_some] at h1
  rw [hq, Option.bind_some, Option.bind_eq_some_iff] at h1
  obtain ⟨a, ha, h1⟩ := h1
  rw [Option.map_eq_some_iff] at h1
  obtain ⟨b, hb, h1⟩ := h1
  rw [← h1]
  obtain ⟨a1, a2, a3, a4⟩ := make_precomp ha
  obtain ⟨b1, b2, b3, b4⟩ := make_precomp hb
  cases a; cases b
  simp only at a1 a2 a3 a4 b1 b2 b3 b4
  rw [a1, a2, a3, a4, b1, b2, b3, b4]

/-- The form of a matrix whose entries are values of a quadrature rule. -/
theorem dense_form (q : QuadRule ℝ) (hq : q.weights.length = q.points.length) (n m : ℕ) (F : ℕ → ℕ → List ℝ → ℝ) (v u : List ℝ) :
    Dense.form ⟨n, m, fun i j => 0 + ∑ k ∈ range q.numPoints, q.weights.getD k 0 * F i j (q.points.getD k [])⟩ v u =
      q.integrate fun x => ∑ i : Fin n, ∑ j : Fin m, v.getD i 0 * (u.getD j 0 * F i j x) := by
  unfold Dense.form
  simp only [zero_add, ← integrate_eq_sum q hq]
  rw [integrate_sum]
  rw [← Fin.sum_univ_eq_sum_range (fun i => ∑ j ∈ range m, v.getD i 0 * (q.integrate (fun x => F i j x) * u.getD j 0))]
  refine Finset.sum_congr rfl fun i _ => ?_
  rw [integrate_sum, ← Fin.sum_univ_eq_sum_range (fun j => v.getD i 0 * (q.integrate (fun x => F i j x) * u.getD j 0))]
  refine Finset.sum_congr rfl fun j _ => ?_
  rw [integrate_smul, integrate_smul, mul_comm (q.integrate _)]

/-- A double sum of products of shape functions. -/
theorem comb_mul (fv ft : RefFE ℝ) (v u : List ℝ) (c : ℝ) (x y : List ℝ) :
    ∑ i : Fin fv.num, ∑ j : Fin ft.num, v.getD i 0 * (u.getD j 0 * (c * (fv.shape i x * ft.shape j y))) =
      c * (comb fv v x * comb ft u y) := by
  rw [comb, comb, RefFE.combine, RefFE.combine, Finset.sum_mul_sum, Finset.mul_sum]
  refine Finset.sum_congr rfl fun i _ => ?_
  rw [Finset.mul_sum]
  exact Finset.sum_congr rfl fun j _ => by ring

theorem combGrad_push (g : Geo ℝ w) (hd : g.kind.dimension = 2) (fe : RefFE ℝ) (c x : List ℝ) :
    g.pushGrad x (combGrad fe c x) = ∑ i : Fin fe.num, c.getD i.val 0 • g.pushGrad x (fe.gradAt i.val x) := by
  rw [combGrad, ← pushGrad_lin hd]

end Verif.Dpg
