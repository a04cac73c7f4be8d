import Verif.Spec.DpgLocComp
import Verif.Lemmas.DpgTrace
import Verif.Props.Lagrange

/-!
# Lemmas: the finite elements of product spaces
-/

namespace Verif.Dpg
open Verif Finset

theorem regular_lagrange {fe : RefFE ℝ} (h : fe.IsLagrange) {r : RefEl} {p : ℕ} (hr : fe.ref = r) (hp : fe.degree = p) :
    Regular fe r p := ⟨hr, hp, h.evaluates, h.polynomial, h.gradCorrect⟩

theorem regular_const (r : RefEl) (hr : r ≠ .point) (x : List ℝ) : Regular (constFE r x) r 0 := by
  refine ⟨rfl, rfl, ⟨fun y hy => ⟨[1], if_pos hy, rfl⟩, fun y hy => if_neg hy⟩, ?_, ?_⟩
  · intro i hi
    change i < 1 at hi
    obtain rfl : i = 0 := by omega
    have h1 : ∀ y : List ℝ, y.length = r.dimension → (constFE r x).shape 0 y = 1 := by
      intro y hy
      have : (constFE r x).eval y = some [1] := if_pos hy
      rw [RefFE.shape, this]
      rfl
    cases r with
    | point => exact absurd rfl hr
    | segment => exact ⟨fun _ => 1, fun x => by rw [h1 [x] rfl]; simp [constFE]⟩
    | tria => exact ⟨fun _ _ => 1, fun x y => by rw [h1 [x, y] rfl]; simp [constFE]⟩
    | quad => exact ⟨fun _ _ => 1, fun x y => by rw [h1 [x, y] rfl]; simp [constFE]⟩
  · intro y hy
    refine ⟨[List.replicate r.dimension 0], if_pos hy, rfl, fun i hi => ?_⟩
    change i < 1 at hi
    obtain rfl : i = 0 := by omega
    refine ⟨by simp [constFE], fun k hk => ?_⟩
    have h1 : (fun t => (constFE r x).shape 0 (y.set k t)) = fun _ => (1 : ℝ) := by
      funext t
      have : (constFE r x).eval (y.set k t) = some [1] := if_pos (by rw [List.length_set]; exact hy)
      rw [RefFE.shape, this]
      rfl
    rw [h1]
    have h2 : (([List.replicate r.dimension 0] : List (List ℝ)).getD 0 []).getD k 0 = 0 := by
      change (List.replicate r.dimension (0 : ℝ)).getD k 0 = 0
      rw [List.getD_eq_getElem _ _ (by rw [List.length_replicate]; exact hk)]
      simp
    rw [h2]
    exact hasDerivAt_const _ _

theorem regular_disc {fe : RefFE ℝ} {r : RefEl} {p : ℕ} (h : Regular fe r p) : Regular (discontinuousFE fe) r p :=
  ⟨h.ref, h.degree, h.evaluates, h.polynomial, h.gradCorrect⟩

theorem regular_trace {fe t : RefFE ℝ} {r : RefEl} {p : ℕ} (h : Regular fe r p) (ht : traceFE fe = some t) : Regular t r p := by
  unfold traceFE at ht
  rw [Option.map_eq_some_iff] at ht
  obtain ⟨n0, -, rfl⟩ := ht
  have hshape : ∀ i < fe.num - n0, ∀ x : List ℝ, (((fe.eval x).map (fun v => v.take (fe.num - n0))).getD []).getD i 0 = fe.shape i x := by
    intro i hi x
    rw [RefFE.shape]
    cases fe.eval x with
    | none => rfl
    | some v => simp [List.getD_eq_getElem?_getD, List.getElem?_take, hi]
  refine ⟨h.ref, h.degree, ⟨fun x hx => ?_, fun x hx => ?_⟩, fun i hi => ?_, fun x hx => ?_⟩
  · obtain ⟨v, hv, hl⟩ := h.evaluates.1 x hx
    refine ⟨v.take (fe.num - n0), by simp only [hv, Option.map_some], ?_⟩
    rw [List.length_take, hl]
    exact Nat.min_eq_left (Nat.sub_le _ _)
  · have := h.evaluates.2 x hx
    simp only [this, Option.map_none]
  · have hp := h.polynomial i (lt_of_lt_of_le hi (Nat.sub_le _ _))
    refine Eq.mp ?_ hp
    congr 1
    funext x
    exact (hshape i hi x).symm
  · obtain ⟨v, hv, hl, hd⟩ := h.gradCorrect x hx
    refine ⟨v.take (fe.num - n0), by simp only [hv, Option.map_some], ?_, fun i hi => ?_⟩
    · rw [List.length_take, hl]
      exact Nat.min_eq_left (Nat.sub_le _ _)
    · have hi' : i < fe.num - n0 := hi
      obtain ⟨g1, g2⟩ := hd i (lt_of_lt_of_le hi (Nat.sub_le _ _))
      have e : (v.take (fe.num - n0)).getD i [] = v.getD i [] := by
        simp [List.getD_eq_getElem?_getD, List.getElem?_take, hi']
      rw [e]
      refine ⟨g1, fun k hk => ?_⟩
      have := g2 k hk
      refine Eq.mp ?_ this
      congr 1
      funext t
      exact (hshape i hi' _).symm

theorem regular_reference (r : RefEl) (hr : r ≠ .point) (p : ℕ) (fe : RefFE ℝ) (h : referenceFE r p = some fe) :
    Regular fe r p := by
  cases r with
  | point => exact absurd rfl hr
  | segment =>
    match p, h with
    | 0, h => cases h; exact regular_const _ (by decide) _
    | 1, h => cases h; exact regular_lagrange C44_o1Segment rfl rfl
    | 2, h => cases h; exact regular_lagrange C44_o2Segment rfl rfl
    | 3, h => cases h; exact regular_lagrange C44_o3Segment rfl rfl
  | tria =>
    match p, h with
    | 0, h => cases h; exact regular_const _ (by decide) _
    | 1, h => cases h; exact regular_lagrange C44_o1Tria rfl rfl
    | 2, h => cases h; exact regular_lagrange C44_o2Tria rfl rfl
    | 3, h => cases h; exact regular_lagrange C44_o3Tria rfl rfl
  | quad =>
    match p, h with
    | 0, h => cases h; exact regular_const _ (by decide) _
    | 1, h => cases h; exact regular_lagrange C44_o1Quad rfl rfl
    | 2, h => cases h; exact regular_lagrange C44_o2Quad rfl rfl
    | 3, h => cases h; exact regular_lagrange C44_o3Quad rfl rfl

end Verif.Dpg
