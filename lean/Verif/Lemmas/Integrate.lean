import Mathlib.Analysis.SpecialFunctions.Integrals.Basic
import Verif.Spec.FeTools
import Verif.Lemmas.OptList

/-!
# Lemmas on `IntegrateMeshFunction`
-/

namespace Verif

section
variable {K V : Type} [Field K] [AddCommMonoid V] [Module K V]

theorem localLoop_eq (ws : List K) (vs : List V) (n : ℕ) (hw : ws.length = n) (hv : vs.length = n) (hn : n ≠ 0) :
    ((ws[0]?).bind fun w0 => (vs[0]?).bind fun v0 =>
      (List.range' 1 (n - 1)).foldlM (fun temp i =>
        (ws[i]?).bind fun w => (vs[i]?).map fun v => temp + w • v) (w0 • v0)) =
      some ((List.zipWith (fun w v => w • v) ws vs).sum) := by
  have h0 : 0 < ws.length := by omega
  have h0' : 0 < vs.length := by omega
  rw [List.getElem?_eq_getElem h0, List.getElem?_eq_getElem h0', Option.bind_some, Option.bind_some]
  have key : ∀ k, k + 1 ≤ n → ((List.range' 1 k).foldlM (fun temp i =>
        (ws[i]?).bind fun w => (vs[i]?).map fun v => temp + w • v) (ws[0] • vs[0]) : Option V) =
      some (((List.zipWith (fun w v => w • v) ws vs).take (k + 1)).sum) := by
    intro k hk
    induction k with
    | zero =>
      rw [List.take_succ_eq_append_getElem (by simp; omega)]
      simp
    | succ k ih =>
      rw [show List.range' 1 (k + 1) = List.range' 1 k ++ [1 + k] by
        rw [List.range'_concat]; simp, List.foldlM_append, ih (by omega)]
      have e1 : k + 1 < ws.length := by omega
      have e2 : k + 1 < vs.length := by omega
      rw [List.take_succ_eq_append_getElem (i := k + 1) (by simp; omega), List.sum_append]
      simp [List.getElem?_eq_getElem e1, List.getElem?_eq_getElem e2, Nat.add_comm 1 k]
  have := key (n - 1) (by omega)
  rw [this, List.take_of_length_le (by simp; omega)]

theorem localIntegral_eq (ie : Ent → List K → Option K) (sel : Ent → Option (QuadRule K)) (mf : MeshFn K V)
    (e : Ent) (q : QuadRule K) (detJ : List K → K) (f : List K → V) (hq : sel e = some q)
    (hw : q.weights.length = q.points.length) (hn : q.points ≠ [])
    (hie : ∀ x ∈ q.points, ie e x = some (detJ x)) (hmf : mf e q.points = some (q.points.map f)) :
    localIntegral ie sel mf e = some (q.transformed detJ f) := by
  rw [localIntegral, hq, Option.bind_some, hmf, Option.bind_some, mapM_pure _ detJ _ hie, Option.bind_some,
    if_pos (by simp [hw, QuadRule.numPoints])]
  refine (localLoop_eq _ _ q.numPoints (by simp [hw, QuadRule.numPoints]) (by simp [QuadRule.numPoints])
    (by simpa [QuadRule.numPoints] using hn)).trans ?_
  congr 1
  rw [QuadRule.transformed]
  congr 1
  apply List.ext_getElem
  · simp
  · intro i h1 h2
    simp

/-- A rule without points is of no use. -/
theorem localIntegral_none (ie : Ent → List K → Option K) (sel : Ent → Option (QuadRule K)) (mf : MeshFn K V)
    (e : Ent) (q : QuadRule K) (hq : sel e = some q) (hn : q.points = []) (hw : q.weights = []) :
    localIntegral ie sel mf e = none := by
  rw [localIntegral, hq, Option.bind_some, hn]
  cases mf e [] with
  | none => rfl
  | some values =>
    rw [Option.bind_some, List.mapM_nil]
    change (if _ then _ else none) = none
    simp [hw]

theorem sumSelected_succ (n : ℕ) (sel : ℕ → Bool) (I : ℕ → V) :
    sumSelected (n + 1) sel I = sumSelected n sel I + if sel n then I n else 0 := by
  rw [sumSelected, sumSelected, List.range_succ, List.filter_append, List.map_append, List.sum_append]
  cases h : sel n <;> simp [List.filter_cons, h]

theorem integrate_eq (T : Topo) (ie : Ent → List K → Option K) (mf : MeshFn K V)
    (sel : Ent → Option (QuadRule K)) (ep : ℕ → Bool) (codim : ℕ) (I : ℕ → V) (h0 : T.num codim ≠ 0)
    (hI : ∀ i < T.num codim, i = 0 ∨ ep i = true → localIntegral ie sel mf (codim, i) = some (I i)) :
    integrateMeshFunction T ie mf sel ep codim =
      some (sumSelected (T.num codim) (fun i => i == 0 || ep i) I) := by
  rw [integrateMeshFunction, if_neg h0, hI 0 (by omega) (Or.inl rfl), Option.bind_some]
  have key : ∀ k, k + 1 ≤ T.num codim → ((List.range' 1 k).foldlM (fun result i =>
      if !ep i then some result
      else (localIntegral ie sel mf (codim, i)).map fun v => result + v) (I 0) : Option V) =
      some (sumSelected (k + 1) (fun i => i == 0 || ep i) I) := by
    intro k hk
    induction k with
    | zero => simp [sumSelected]
    | succ k ih =>
      rw [show List.range' 1 (k + 1) = List.range' 1 k ++ [1 + k] by
        rw [List.range'_concat]; simp, List.foldlM_append, ih (by omega), sumSelected_succ (k + 1)]
      cases he : ep (k + 1) with
      | false => simp [Nat.add_comm 1 k, he]
      | true =>
        simp [Nat.add_comm 1 k, he, hI (k + 1) (by omega) (Or.inr he)]
  have := key (T.num codim - 1) (by omega)
  rw [this]
  congr 2
  omega

end

/-- Rules that are exact for constants have points. -/
theorem exact_points_ne {q : QuadRule ℝ} {d : ℕ} (h : q.ExactFor d) : q.points ≠ [] := by
  intro hn
  have hp : IsPolyOn q.ref d fun _ => 1 := by
    cases q.ref with
    | point => trivial
    | segment => exact ⟨fun a => if a = 0 then 1 else 0, fun x => by simp⟩
    | tria =>
      refine ⟨fun a b => if a = 0 then (if b = 0 then 1 else 0) else 0, fun x y => ?_⟩
      rw [Finset.sum_eq_single 0]
      · simp
      · intro a _ ha; simp [ha]
      · simp
    | quad =>
      refine ⟨fun a b => if a = 0 then (if b = 0 then 1 else 0) else 0, fun x y => ?_⟩
      rw [Finset.sum_eq_single 0]
      · simp
      · intro a _ ha; simp [ha]
      · simp
  have := h _ hp
  rw [QuadRule.integrate, hn, List.zipWith_nil_right] at this
  cases hr : q.ref with
  | point => rw [hr] at this; simp [refIntegral] at this
  | segment => rw [hr] at this; simp [refIntegral] at this
  | tria =>
    rw [hr] at this
    simp only [refIntegral, intervalIntegral.integral_const, smul_eq_mul, mul_one, sub_zero] at this
    rw [intervalIntegral.integral_sub (by simp) (by simp)] at this
    norm_num at this
  | quad => rw [hr] at this; simp [refIntegral] at this

theorem transformed_const (q : QuadRule ℝ) (c : ℝ) (f : List ℝ → ℝ) :
    q.transformed (fun _ => c) f = c * q.integrate f := by
  rw [QuadRule.transformed, QuadRule.integrate]
  generalize q.weights = ws
  generalize q.points = ps
  induction ws generalizing ps with
  | nil => simp
  | cons w ws ih =>
    cases ps with
    | nil => simp
    | cons p ps =>
      rw [List.zip_cons_cons, List.map_cons, List.sum_cons, ih, List.zipWith_cons_cons, List.sum_cons,
        smul_eq_mul]
      ring

end Verif
