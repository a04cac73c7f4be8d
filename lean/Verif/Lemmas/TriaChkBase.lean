import Verif.Model.TriaTabBase

/-! Checks of tabulated quadrature rules by integer arithmetic; written for evaluation in the kernel. -/

namespace Verif

/-- Moment `∑ w x^a y^b`. -/
noncomputable def tabMoment (a b : ℕ) (t : List TabRow) : ℕ :=
  List.rec 0 (fun r _ ih => Nat.add (Nat.mul (Nat.mul r.w (Nat.pow r.x a)) (Nat.pow r.y b)) ih) t

noncomputable def tabFact (n : ℕ) : ℕ := Nat.rec 1 (fun n ih => Nat.mul (Nat.succ n) ih) n

/-- The error of the moment is at most `10⁻¹⁵`. -/
noncomputable def tabChk (t : List TabRow) (a b : ℕ) : Bool :=
  Nat.ble (Nat.mul (Nat.pow 10 15)
      (Nat.add
        (Nat.sub (Nat.mul (tabMoment a b t) (tabFact (a + b + 2)))
          (Nat.mul (Nat.mul (tabFact a) (tabFact b)) (Nat.pow tabScale (a + b + 1))))
        (Nat.sub (Nat.mul (Nat.mul (tabFact a) (tabFact b)) (Nat.pow tabScale (a + b + 1)))
          (Nat.mul (tabMoment a b t) (tabFact (a + b + 2))))))
    (Nat.mul (tabFact (a + b + 2)) (Nat.pow tabScale (a + b + 1)))

/-- `f b` for all `b < n`. -/
noncomputable def allB (f : ℕ → Bool) (n : ℕ) : Bool := Nat.rec true (fun b ih => Bool.rec false ih (f b)) n

/-- The moments `x^a y^b`, `b < n`. -/
noncomputable def tabCol (t : List TabRow) (a n : ℕ) : Bool := allB (tabChk t a) n

/-- Weights are positive, points inside. -/
noncomputable def tabRows (t : List TabRow) : Bool :=
  List.rec true (fun r _ ih => Bool.rec false (Bool.rec false ih (Nat.ble (Nat.add r.x r.y) tabScale)) (Nat.ble 1 r.w)) t

structure TabOk (d : ℕ) (t : List TabRow) : Prop where
  rows : tabRows t = true
  cols : ∀ a < d + 1, tabCol t a (d + 1 - a) = true

theorem allLt_zero {P : ℕ → Prop} : ∀ a < 0, P a := fun a h => absurd h (Nat.not_lt_zero a)

theorem allLt_succ {P : ℕ → Prop} {n : ℕ} (h : ∀ a < n, P a) (hn : P n) : ∀ a < n + 1, P a := fun a ha =>
  (Nat.lt_succ_iff_lt_or_eq.1 ha).elim (h a) fun e => e ▸ hn

end Verif
