import Mathlib.Algebra.BigOperators.Group.List.Lemmas
import Verif.Lemmas.LagrConform
import Verif.Lemmas.HierEval
import Verif.Lemmas.Jacobi

/-!
# Lemmas: the hierarchic elements are conforming
-/

namespace Verif
open Geo
variable {K : Type} [Field K]

theorem dotRow_append {a c : List K} (b d : List K) (h : a.length = c.length) :
    dotRow (a ++ b) (c ++ d) = dotRow a c + dotRow b d := by
  rw [dotRow, List.zipWith_append h, List.sum_append]; rfl

theorem dotRow_reverse {a b : List K} (h : a.length = b.length) : dotRow a.reverse b.reverse = dotRow a b := by
  rw [dotRow, ← List.reverse_zipWith h, List.sum_reverse]; rfl

theorem dotRow_oriented {a b : List K} (o : Bool) (h : a.length = b.length) :
    dotRow (oriented o a) (oriented o b) = dotRow a b := by
  cases o
  · exact dotRow_reverse h
  · rfl

theorem dotRow_zero (a b : List K) (h : ∀ x ∈ b, x = 0) : dotRow a b = 0 := by
  induction a generalizing b with
  | nil => rfl
  | cons x a ih =>
    cases b with
    | nil => rfl
    | cons y b =>
      rw [dotRow, List.zipWith_cons_cons, List.sum_cons, h y (by simp), mul_zero, zero_add]
      exact ih b fun z hz => h z (by simp [hz])

theorem hierSegment_endPoints [CharZero K] (p : ℕ) (hp : 1 ≤ p) (qr : QuadRule K) :
    (hierSegment p qr).EndPoints (p - 1) := by
  refine ⟨_, _, hierSegment_eval p hp qr 0, hierSegment_eval p hp qr 1, by simp [hp]; omega,
    by simp [hp]; omega, fun l hl a b => ⟨?_, ?_⟩⟩
  · rw [segShapes, dotRow_append _ _ (by rfl), dotRow_zero l]
    · simp [dotRow]
    · intro x hx
      obtain ⟨i, -, rfl⟩ := List.mem_map.mp hx
      exact iLegendre_left i 1
  · rw [segShapes, dotRow_append _ _ (by rfl), dotRow_zero l]
    · simp [dotRow]
    · intro x hx
      obtain ⟨i, -, rfl⟩ := List.mem_map.mp hx
      exact iLegendre_right i 1

theorem cellCoeffs_tria (ori : ℕ → Bool) (me : ℕ → ℕ) (mi : ℕ) (V : ℕ → K) (E : ℕ → ℕ → K) (I : ℕ → K) :
    cellCoeffs 3 ori me mi V E I = [V 0, V 1, V 2] ++ oriented (ori 0) ((List.range (me 0)).map (E 0)) ++
      oriented (ori 1) ((List.range (me 1)).map (E 1)) ++ oriented (ori 2) ((List.range (me 2)).map (E 2)) ++
      (List.range mi).map I := by
  simp [cellCoeffs, List.range_succ, oriented]

theorem cellCoeffs_quad (ori : ℕ → Bool) (me : ℕ → ℕ) (mi : ℕ) (V : ℕ → K) (E : ℕ → ℕ → K) (I : ℕ → K) :
    cellCoeffs 4 ori me mi V E I = [V 0, V 1, V 2, V 3] ++
      oriented (ori 0) ((List.range (me 0)).map (E 0)) ++
      oriented (ori 1) ((List.range (me 1)).map (E 1)) ++ oriented (ori 2) ((List.range (me 2)).map (E 2)) ++
      oriented (ori 3) ((List.range (me 3)).map (E 3)) ++ (List.range mi).map I := by
  simp [cellCoeffs, List.range_succ, oriented]

theorem RefFE.Conforms.congr {fe : RefFE K} {ori : ℕ → Bool} {fs : ℕ → RefFE K} {me me' : ℕ → ℕ} {mi mi' : ℕ}
    (h : fe.Conforms ori fs me mi) (he : ∀ j < fe.ref.numNodes, me j = me' j) (hi : mi = mi') :
    fe.Conforms ori fs me' mi' := by
  subst hi
  have hc : ∀ V E I, cellCoeffs fe.ref.numNodes ori me' mi V E I =
      cellCoeffs fe.ref.numNodes ori me mi (K := K) V E I := fun V E I => by
    unfold cellCoeffs
    congr 2
    apply List.flatMap_congr
    intro j hj
    rw [he j (List.mem_range.mp hj)]
  intro V E I j hj t
  rw [hc, ← he j hj]
  exact h V E I j hj t

section
variable [LinearOrder K] [IsStrictOrderedRing K]

omit [LinearOrder K] [IsStrictOrderedRing K] in
theorem iLegendre_zero [CharZero K] {n : ℕ} {a b : K} (h : a = 0 ∨ a = b) : iLegendre (n + 2) a b = 0 := by
  rcases h with rfl | rfl
  · exact iLegendre_left n b
  · exact iLegendre_right n _

namespace HierTria

/-- Edge functions of the other edges vanish on a side, and those of its own edge are the functions of
the segment. -/
theorem edgeFn_side (F : HierTria K) (j : ℕ) (hj : j < 3) (k : ℕ) (hk : k < 3) (i : ℕ) (t x y : K)
    (h : sidePoint .tria j (if F.o j then t else 1 - t) = [x, y]) :
    F.edgeFn k i x y = if k = j then iLegendre (i + 2) t 1 else 0 := by
  interval_cases j <;> simp only [sideTria0, sideTria1, sideTria2, List.cons.injEq, and_true] at h <;>
    obtain ⟨rfl, rfl⟩ := h <;> interval_cases k <;> simp only [edgeFn, bary, reduceCtorEq, if_true, if_false,
      OfNat.ofNat_ne_zero, OfNat.zero_ne_ofNat, zero_ne_one, one_ne_zero, OfNat.ofNat_ne_one,
      OfNat.one_ne_ofNat] <;> split_ifs <;>
    first
    | (congr 1 <;> ring1)
    | exact iLegendre_zero (Or.inl (by ring1))
    | exact iLegendre_zero (Or.inr (by ring1))

theorem intFn_side (F : HierTria K) (j : ℕ) (hj : j < 3) (ij : ℕ × ℕ) (t x y : K)
    (h : sidePoint .tria j (if F.o j then t else 1 - t) = [x, y]) : F.intFn ij x y = 0 := by
  rw [intFn]
  by_cases h0 : j = 0
  · subst h0
    rw [sideTria0] at h
    simp only [List.cons.injEq, and_true] at h
    rw [← h.2, iJacobi_left _ (by positivity), mul_zero]
  · rw [F.edgeFn_side j hj 0 (by omega) _ t x y h, if_neg (Ne.symm h0), zero_mul]

theorem conforms (F : HierTria K) (he : ∀ j < 3, 1 ≤ F.e j) (qs : ℕ → QuadRule K) :
    F.fe.Conforms F.o (fun j => hierSegment (F.e j) (qs j)) (fun j => F.e j - 1) F.numInterior := by
  intro V E I j hj t
  change j < 3 at hj
  obtain ⟨x, y, hxy⟩ : ∃ x y, sidePoint .tria j (if F.o j then t else 1 - t) = [x, y] := by
    interval_cases j <;> simp only [sideTria0, sideTria1, sideTria2] <;> exact ⟨_, _, rfl⟩
  refine ⟨F.shapes x y, segShapes (F.e j) t, ?_, hierSegment_eval _ (he j hj) _ t, ?_,
    by rw [segShapes_length _ (he j hj)]; have := he j hj; show F.e j + 1 = 2 + (F.e j - 1); omega, ?_⟩
  · change F.eval (sidePoint .tria j _) = _
    rw [hxy, eval_eq]
  · change _ = (cellCoeffs 3 _ _ _ _ _ _).length
    rw [shapes_length, cellCoeffs_tria]
    simp only [List.length_append, oriented_length, List.length_map, List.length_range, List.length_cons,
      List.length_nil, num]
    omega
  · change dotRow (cellCoeffs 3 _ _ _ _ _ _) _ = _
    have hedge : ∀ k < 3, dotRow (oriented (F.o k) ((List.range (F.e k - 1)).map (E k))) (F.edgeShapes k x y) =
        if k = j then dotRow ((List.range (F.e j - 1)).map (E j))
          ((List.range (F.e j - 1)).map fun i => iLegendre (i + 2) t 1) else 0 := by
      intro k hk
      rw [edgeShapes, dotRow_oriented _ (by simp)]
      have := fun i => F.edgeFn_side j hj k hk i t x y hxy
      split
      · rename_i hkj
        subst hkj
        simp only [this, if_true]
      · rename_i hkj
        apply dotRow_zero
        intro z hz
        obtain ⟨i, -, rfl⟩ := List.mem_map.mp hz
        rw [this, if_neg hkj]
    have hint : dotRow ((List.range F.numInterior).map I) ((interior F.p).map fun ij => F.intFn ij x y) = 0 := by
      apply dotRow_zero
      intro z hz
      obtain ⟨i, -, rfl⟩ := List.mem_map.mp hz
      exact F.intFn_side j hj i t x y hxy
    rw [cellCoeffs_tria, shapes, dotRow_append _ _ (by simp), dotRow_append _ _ (by simp),
      dotRow_append _ _ (by simp), dotRow_append _ _ (by rfl), hint, hedge 0 (by omega), hedge 1 (by omega),
      hedge 2 (by omega), segShapes, dotRow_append _ _ (by cases F.o j <;> rfl)]
    have hv : dotRow [V 0, V 1, V 2] [1 - x - y, x, y] = dotRow (if F.o j then [V j, V ((j + 1) % 3)] else
        [V ((j + 1) % 3), V j]) [1 - t, t] := by
      interval_cases j <;> simp only [sideTria0, sideTria1, sideTria2, List.cons.injEq, and_true] at hxy <;>
        obtain ⟨rfl, rfl⟩ := hxy <;> split_ifs <;> simp [dotRow] <;> ring
    rw [hv]
    change _ = dotRow (if F.o j then [V j, V ((j + 1) % 3)] else [V ((j + 1) % 3), V j]) [1 - t, t] + _
    interval_cases j <;> simp

end HierTria

namespace HierQuad

omit [LinearOrder K] [IsStrictOrderedRing K] in
theorem fn1_zero [CharZero K] (i : ℕ) : fn1 (i + 2) (0 : K) = 0 := iLegendre_left i 1
omit [LinearOrder K] [IsStrictOrderedRing K] in
theorem fn1_one [CharZero K] (i : ℕ) : fn1 (i + 2) (1 : K) = 0 := iLegendre_right i 1

theorem conforms (F : HierQuad K) (he : ∀ j < 4, 1 ≤ F.e j) (qs : ℕ → QuadRule K) :
    F.fe.Conforms F.o (fun j => hierSegment (F.e j) (qs j)) (fun j => F.e j - 1) F.numInterior := by
  intro V E I j hj t
  change j < 4 at hj
  have hd : 1 ≤ F.deg1 := le_trans (he 0 (by omega)) (by simp [deg1])
  obtain ⟨x, y, hxy⟩ : ∃ x y, sidePoint .quad j (if F.o j then t else 1 - t) = [x, y] := by
    interval_cases j <;> simp only [sideQuad0, sideQuad1, sideQuad2, sideQuad3] <;> exact ⟨_, _, rfl⟩
  refine ⟨F.shapes x y, segShapes (F.e j) t, ?_, hierSegment_eval _ (he j hj) _ t, ?_,
    by rw [segShapes_length _ (he j hj)]; have := he j hj; show F.e j + 1 = 2 + (F.e j - 1); omega, ?_⟩
  · change F.eval (sidePoint .quad j _) = _
    rw [hxy, eval_eq _ hd]
  · change _ = (cellCoeffs 4 _ _ _ _ _ _).length
    rw [shapes_length, cellCoeffs_quad]
    simp only [List.length_append, oriented_length, List.length_map, List.length_range, List.length_cons,
      List.length_nil, num]
    omega
  · change dotRow (cellCoeffs 4 _ _ _ _ _ _) _ = _
    have hedge : ∀ k < 4, ∀ g : ℕ → K, (∀ i, g i = if k = j then iLegendre (i + 2) t 1 else 0) →
        dotRow (oriented (F.o k) ((List.range (F.e k - 1)).map (E k)))
          (oriented (F.o k) ((List.range (F.e k - 1)).map g)) =
        if k = j then dotRow ((List.range (F.e j - 1)).map (E j))
          ((List.range (F.e j - 1)).map fun i => iLegendre (i + 2) t 1) else 0 := by
      intro k hk g hg
      rw [dotRow_oriented _ (by simp)]
      split
      · rename_i hkj
        subst hkj
        rw [show g = fun i => iLegendre (i + 2) t 1 from funext fun i => by rw [hg, if_pos rfl]]
      · rename_i hkj
        apply dotRow_zero
        intro z hz
        obtain ⟨i, -, rfl⟩ := List.mem_map.mp hz
        rw [hg, if_neg hkj]
    have hint : dotRow ((List.range F.numInterior).map I) ((List.range (F.p - 1)).flatMap fun i =>
        (List.range (F.p - 1)).map fun j => fn1 (j + 2) x * fn1 (i + 2) y) = 0 := by
      apply dotRow_zero
      intro z hz
      obtain ⟨a, -, hz⟩ := List.mem_flatMap.mp hz
      obtain ⟨b, -, rfl⟩ := List.mem_map.mp hz
      interval_cases j <;> simp only [sideQuad0, sideQuad1, sideQuad2, sideQuad3, List.cons.injEq,
        and_true] at hxy <;> obtain ⟨rfl, rfl⟩ := hxy <;> simp [fn1_zero, fn1_one]
    have hv : dotRow [V 0, V 1, V 2, V 3] [fn1 0 x * fn1 0 y, fn1 1 x * fn1 0 y, fn1 1 x * fn1 1 y,
        fn1 0 x * fn1 1 y] = dotRow (if F.o j then [V j, V ((j + 1) % 4)] else
        [V ((j + 1) % 4), V j]) [1 - t, t] := by
      interval_cases j <;> simp only [sideQuad0, sideQuad1, sideQuad2, sideQuad3, List.cons.injEq,
        and_true] at hxy <;>
        obtain ⟨rfl, rfl⟩ := hxy <;> split_ifs <;> simp [dotRow, fn1] <;> ring
    rw [cellCoeffs_quad, shapes, block, dotRow_append _ _ (by simp), dotRow_append _ _ (by simp),
      dotRow_append _ _ (by simp), dotRow_append _ _ (by simp), dotRow_append _ _ (by rfl), hint, hv,
      segShapes, dotRow_append _ _ (by cases F.o j <;> rfl), hedge 0 (by omega), hedge 1 (by omega),
      hedge 2 (by omega), hedge 3 (by omega)]
    · change _ = dotRow (if F.o j then [V j, V ((j + 1) % 4)] else [V ((j + 1) % 4), V j]) [1 - t, t] + _
      interval_cases j <;> simp
    all_goals
      intro i
      interval_cases j <;> simp only [sideQuad0, sideQuad1, sideQuad2, sideQuad3, List.cons.injEq,
        and_true] at hxy <;> obtain ⟨rfl, rfl⟩ := hxy <;> split_ifs <;>
        simp_all [fn1, iLegendre_left, iLegendre_right]

end HierQuad
end

end Verif
